import Verif.Lemmas.Twice
import Verif.Props.RandLeak
import Verif.Props.Domains
import Verif.Props.Example

/-!
# C98: proofs made twice from the same state of the random number generator

`C98_..._formula`: whoever sees two proofs made from the same state, for two equations of one kind, computes
`Σ_i F(ι(x_i), (b'_i + Σ_j γ'_ij d'_j) - (b_i + Σ_j γ_ij d_j))`, on every CRS. `C98_..._same`: for one equation this is
`x · Γ (y' - y)`. `C98_..._exact`: on a hiding CRS, the differences of the witnesses and this value are all that is revealed.
-/

set_option linter.unusedSectionVars false

namespace GS
variable {F G1 G2 GT : Type} [Field F] [AddCommGroup G1] [Module F G1] [AddCommGroup G2] [Module F G2]
  [AddCommGroup GT] [Module F GT] {e : G1 →ₗ[F] G2 →ₗ[F] GT} {crs : CRS G1 G2 GT}

/-- C98: what two proofs for PPE equations from the same state of the generator reveal, on any CRS. -/
theorem C98_ppe_formula {ρ : Type} [Rng ρ F G1 G2] {u0 u1 : Com G1} {v0 v1 : Com G2} (hu : crs.u = [u0, u1]) (hv : crs.v = [v0, v1])
    (equ equ' : PPE F G1 G2 GT) (x x' : List G1) (y y' : List G2) (hlx : x'.length = x.length) (hly : y'.length = y.length)
    (sch sch' : Nat → Scheduler) (rng r r' : ρ) (cp cp' : CProof F G1 G2) (pf pf' : EquProof F G1 G2)
    (h : equ.commitAndProve sch x y crs rng = .ok (cp, r)) (h' : equ'.commitAndProve sch' x' y' crs rng = .ok (cp', r'))
    (hp : cp.equ_proofs = [pf]) (hp' : cp'.equ_proofs = [pf']) :
    let b := equ.b_consts.map fun b => (⟨0, b⟩ : Com G2)
    let b' := equ'.b_consts.map fun b => (⟨0, b⟩ : Com G2)
    twice e crs b b' equ.gamma equ'.gamma cp.xcoms.coms cp.ycoms.coms cp'.ycoms.coms pf.pi pf'.pi =
      pairSum e (x.map fun x => (⟨0, x⟩ : Com G1))
        (minus (weights b' equ'.gamma cp'.ycoms.coms) (weights b equ.gamma cp.ycoms.coms)) := by
  intro b₁ b₂
  obtain ⟨hx, hy, hd, -, -⟩ := ((C36_commit_and_prove sch crs rng).1 equ x y).mp ⟨_, h⟩
  obtain ⟨-, -, hd', -, -⟩ := ((C36_commit_and_prove sch' crs rng).1 equ' x' y').mp ⟨_, h'⟩
  have hm := List.length_pos_iff.mpr hx
  have hn := List.length_pos_iff.mpr hy
  rw [hlx, hly] at hd'
  obtain ⟨m, hxm⟩ : ∃ m, x.length = m := ⟨_, rfl⟩
  obtain ⟨n, hyn⟩ : ∃ n, y.length = n := ⟨_, rfl⟩
  rw [hxm] at hm hd hd' hlx
  rw [hyn] at hn hd hd' hly
  obtain ⟨a, ha⟩ := exists_ofFn equ.a_consts hd.a
  obtain ⟨b, hb⟩ := exists_ofFn equ.b_consts hd.b
  obtain ⟨γ, hγ⟩ := rect_iff.mp (⟨hd.rows, hd.cols⟩ : Rect _ _ equ.gamma)
  obtain ⟨a', ha'⟩ := exists_ofFn equ'.a_consts hd'.a
  obtain ⟨b', hb'⟩ := exists_ofFn equ'.b_consts hd'.b
  obtain ⟨γ', hγ'⟩ := rect_iff.mp (⟨hd'.rows, hd'.cols⟩ : Rect _ _ equ'.gamma)
  obtain ⟨x, rfl⟩ := exists_ofFn x hxm
  obtain ⟨y, rfl⟩ := exists_ofFn y hyn
  obtain ⟨x', rfl⟩ := exists_ofFn x' hlx
  obtain ⟨y', rfl⟩ := exists_ofFn y' hly
  obtain ⟨R, S, T, hr⟩ := draws_cut (F := F) (G1 := G1) (G2 := G2) (m := m) (n := n) 2 2 2 2 (2 * m + 2 * n + 4) (by omega) rng
  rw [PPE.cap_draws hm hn ha hb hγ x y hu hv hr] at h
  rw [PPE.cap_draws hm hn ha' hb' hγ' x' y' hu hv hr] at h'
  obtain ⟨rfl, -⟩ := Prod.mk.inj (Except.ok.inj h)
  obtain ⟨rfl, -⟩ := Prod.mk.inj (Except.ok.inj h')
  simp only [List.cons.injEq, and_true] at hp hp'
  subst hp hp'
  simp only [b₁, b₂, hγ, hb, hγ', hb', List.map_ofFn, groupCom_sum]
  exact twice_ofFn e (u' := []) (by rw [hu]; simp [List.ofFn_succ]) _ _ _ _ _ γ γ' R S T

/-- C98: two proofs for one PPE equation from the same state of the generator reveal `x · Γ (y' - y)`, on any CRS. -/
theorem C98_ppe_same {ρ : Type} [Rng ρ F G1 G2] {u0 u1 : Com G1} {v0 v1 : Com G2} (hu : crs.u = [u0, u1]) (hv : crs.v = [v0, v1])
    (equ : PPE F G1 G2 GT) (x x' : List G1) (y y' : List G2) (hlx : x'.length = x.length) (hly : y'.length = y.length)
    (sch sch' : Nat → Scheduler) (rng r r' : ρ) (cp cp' : CProof F G1 G2) (pf pf' : EquProof F G1 G2)
    (h : equ.commitAndProve sch x y crs rng = .ok (cp, r)) (h' : equ.commitAndProve sch' x' y' crs rng = .ok (cp', r'))
    (hp : cp.equ_proofs = [pf]) (hp' : cp'.equ_proofs = [pf']) :
    let b := equ.b_consts.map fun b => (⟨0, b⟩ : Com G2)
    twice e crs b b equ.gamma equ.gamma cp.xcoms.coms cp.ycoms.coms cp'.ycoms.coms pf.pi pf'.pi =
      ComT.linearMapPPE (cross (fun x y => e x y) equ.gamma x (minus y' y)) := by
  intro b₁
  rw [C98_ppe_formula hu hv equ equ x x' y y' hlx hly sch sch' rng r r' cp cp' pf pf' h h' hp hp']
  obtain ⟨hx, hy, hd, -, -⟩ := ((C36_commit_and_prove sch crs rng).1 equ x y).mp ⟨_, h⟩
  have hm := List.length_pos_iff.mpr hx
  have hn := List.length_pos_iff.mpr hy
  obtain ⟨m, hxm⟩ : ∃ m, x.length = m := ⟨_, rfl⟩
  obtain ⟨n, hyn⟩ : ∃ n, y.length = n := ⟨_, rfl⟩
  rw [hxm] at hm hd hlx
  rw [hyn] at hn hd hly
  obtain ⟨a, ha⟩ := exists_ofFn equ.a_consts hd.a
  obtain ⟨b, hb⟩ := exists_ofFn equ.b_consts hd.b
  obtain ⟨γ, hγ⟩ := rect_iff.mp (⟨hd.rows, hd.cols⟩ : Rect _ _ equ.gamma)
  obtain ⟨x, rfl⟩ := exists_ofFn x hxm
  obtain ⟨y, rfl⟩ := exists_ofFn y hyn
  obtain ⟨x', rfl⟩ := exists_ofFn x' hlx
  obtain ⟨y', rfl⟩ := exists_ofFn y' hly
  obtain ⟨R, S, T, hr⟩ := draws_cut (F := F) (G1 := G1) (G2 := G2) (m := m) (n := n) 2 2 2 2 (2 * m + 2 * n + 4) (by omega) rng
  rw [PPE.cap_draws hm hn ha hb hγ x y hu hv hr] at h
  rw [PPE.cap_draws hm hn ha hb hγ x' y' hu hv hr] at h'
  obtain ⟨rfl, -⟩ := Prod.mk.inj (Except.ok.inj h)
  obtain ⟨rfl, -⟩ := Prod.mk.inj (Except.ok.inj h')
  simp only [hγ, hb, List.map_ofFn, minus_ofFn, cross_ofFn, groupCom_sum]
  refine (weights_same e _ _ _ _ _ γ).trans ?_
  rw [show ComT.linearMapPPE (∑ i, ∑ j, γ i j • e (x i) (y' j - y j)) = tPPE (F := F) (∑ i, ∑ j, γ i j • e (x i) (y' j - y j)) from rfl]
  simp only [map_sum, map_smul]
  refine Finset.sum_congr rfl fun i _ => Finset.sum_congr rfl fun j _ => ?_
  congr 1
  ext <;> simp [tPPE, ComT.linearMapPPE, ComT.pairL_apply, ComT.pairing]

/-- C98: on a hiding CRS, the pairs of PPE proofs from a common state of the generator have the same distribution for two pairs
of solutions exactly if these have the same differences and the same `x · Γ (y' - y)`. -/
theorem C98_ppe_exact (he : PrimeGroups e) {p1 : G1} {p2 : G2} (h1 : p1 ≠ 0) (h2 : p2 ≠ 0) {a1 a2 t1 t2 : F}
    (equ : PPE F G1 G2 GT) (x x' z z' : List G1) (y y' w w' : List G2) (hx : x ≠ []) (hy : y ≠ []) (hd : equ.Dims x.length y.length)
    (hlx : x'.length = x.length) (hlz : z.length = x.length) (hlz' : z'.length = x.length)
    (hly : y'.length = y.length) (hlw : w.length = y.length) (hlw' : w'.length = y.length)
    (h : equ.Holds e x y) (h' : equ.Holds e x' y') (k : equ.Holds e z w) (k' : equ.Holds e z' w')
    (sch sch' sch₁ sch₁' : Nat → Scheduler) :
    let crs := assembleCrs e prepareSimulatedHidingKey p1 p2 a1 a2 t1 t2
    SameViews (N := 2 * x.length + 2 * y.length + 4)
      (viewsOn (fun rng => equ.commitAndProve sch x y crs rng) (fun rng => equ.commitAndProve sch' x' y' crs rng))
      (viewsOn (fun rng => equ.commitAndProve sch₁ z w crs rng) (fun rng => equ.commitAndProve sch₁' z' w' crs rng)) ↔
    minus x' x = minus z' z ∧ minus y' y = minus w' w ∧
      cross (fun x y => e x y) equ.gamma x (minus y' y) = cross (fun x y => e x y) equ.gamma z (minus w' w) := by
  intro crs
  obtain ⟨u0, u1, v0, v1, hu, hv, ku, kv⟩ := simulated_keys he h1 h2 (a1 := a1) (a2 := a2) (t1 := t1) (t2 := t2)
  change crs.u = [u0, u1] at hu
  change crs.v = [v0, v1] at hv
  change HidingKey crs.g1_gen a1 t1 u0 u1 at ku
  change HidingKey crs.g2_gen a2 t2 v0 v1 at kv
  generalize crs = crs at hu hv ku kv
  have hm := List.length_pos_iff.mpr hx
  have hn := List.length_pos_iff.mpr hy
  obtain ⟨m, hxm⟩ : ∃ m, x.length = m := ⟨_, rfl⟩
  obtain ⟨n, hyn⟩ : ∃ n, y.length = n := ⟨_, rfl⟩
  rw [hxm] at hm hd hlx hlz hlz'
  rw [hyn] at hn hd hly hlw hlw'
  rw [hxm, hyn]
  obtain ⟨a, ha⟩ := exists_ofFn equ.a_consts hd.a
  obtain ⟨b, hb⟩ := exists_ofFn equ.b_consts hd.b
  obtain ⟨γ, hγ⟩ := rect_iff.mp (⟨hd.rows, hd.cols⟩ : Rect _ _ equ.gamma)
  obtain ⟨x, rfl⟩ := exists_ofFn x hxm
  obtain ⟨y, rfl⟩ := exists_ofFn y hyn
  obtain ⟨x', rfl⟩ := exists_ofFn x' hlx
  obtain ⟨y', rfl⟩ := exists_ofFn y' hly
  obtain ⟨z, rfl⟩ := exists_ofFn z hlz
  obtain ⟨w, rfl⟩ := exists_ofFn w hlw
  obtain ⟨z', rfl⟩ := exists_ofFn z' hlz'
  obtain ⟨w', rfl⟩ := exists_ofFn w' hlw'
  obtain ⟨a, rfl⟩ := exists_scalars ku.cyc a
  obtain ⟨x, rfl⟩ := exists_scalars ku.cyc x
  obtain ⟨x', rfl⟩ := exists_scalars ku.cyc x'
  obtain ⟨z, rfl⟩ := exists_scalars ku.cyc z
  obtain ⟨z', rfl⟩ := exists_scalars ku.cyc z'
  obtain ⟨b, rfl⟩ := exists_scalars kv.cyc b
  obtain ⟨y, rfl⟩ := exists_scalars kv.cyc y
  obtain ⟨y', rfl⟩ := exists_scalars kv.cyc y'
  obtain ⟨w, rfl⟩ := exists_scalars kv.cyc w
  obtain ⟨w', rfl⟩ := exists_scalars kv.cyc w'
  have hg : e crs.g1_gen crs.g2_gen ≠ 0 := fun h0 => (he.nondeg _ _ h0).elim ku.ne kv.ne
  obtain ⟨s, hs⟩ : ∃ s : Fin 2 → F, (i1 (F := F) crs.g1_gen) = ∑ k, s k • ![u0, u1] k := ku.coords _
  obtain ⟨s', hs'⟩ : ∃ s : Fin 2 → F, (i2 (F := F) crs.g2_gen) = ∑ k, s k • ![v0, v1] k := kv.coords _
  have hτ : ComT.pairL e (i1 (F := F) crs.g1_gen) (i2 (F := F) crs.g2_gen) ≠ 0 := by
    intro h0
    exact hg (congrArg ComT.t3 h0)
  have hval := fun α x β y => equLhs_scalar (m := m) (n := n) (fun x y => e x y) (fun r => r • crs.g1_gen) (fun r => r • crs.g2_gen) (e crs.g1_gen crs.g2_gen) (fun x y => by simp [smul_smul, mul_comm]) α x β y γ
  have heq := h.trans k.symm
  have heq' := h'.trans k'.symm
  rw [ha, hb, hγ] at heq heq'
  have heq := smul_cancel hg ((hval _ _ _ _).symm.trans (heq.trans (hval _ _ _ _)))
  have heq' := smul_cancel hg ((hval _ _ _ _).symm.trans (heq'.trans (hval _ _ _ _)))
  rw [sameViews_twice (p := 2) (q := 2) (by omega) (PPE.view_eq hm hn ha hb hγ _ _ hu hv) (PPE.view_eq hm hn ha hb hγ _ _ hu hv)
    (PPE.view_eq hm hn ha hb hγ _ _ hu hv) (PPE.view_eq hm hn ha hb hγ _ _ hu hv)]
  simp only [map_smul]
  rw [twiceFn_iff (ComT.pairL e) hs hs' hτ a b γ x x' z z' y y' w w' heq heq']
  simp only [minus_ofFn, hγ, cross_ofFn, List.ofFn_inj, ← sub_smul]
  refine and_congr (smul_fun_inj ku.ne _ _).symm (and_congr (smul_fun_inj kv.ne _ _).symm ?_)
  simp only [map_smul, LinearMap.smul_apply, smul_smul, ← Finset.sum_smul]
  refine ⟨fun h => congrArg (· • e crs.g1_gen crs.g2_gen) ?_, fun h => ?_⟩
  · refine Eq.trans ?_ (h.trans ?_) <;>
      exact Finset.sum_congr rfl fun i _ => Finset.sum_congr rfl fun j _ => by ring
  · refine Eq.trans ?_ ((smul_cancel hg h).trans ?_) <;>
      exact Finset.sum_congr rfl fun i _ => Finset.sum_congr rfl fun j _ => by ring

/-- C98: what two proofs for MSMEG1 equations from the same state of the generator reveal, on any CRS. -/
theorem C98_msmeg1_formula {ρ : Type} [Rng ρ F G1 G2] {u0 u1 : Com G1} {v0 v1 : Com G2} (hu : crs.u = [u0, u1]) (hv : crs.v = [v0, v1])
    (equ equ' : MSMEG1 F G1) (x x' : List G1) (y y' : List F) (hlx : x'.length = x.length) (hly : y'.length = y.length)
    (sch sch' : Nat → Scheduler) (rng r r' : ρ) (cp cp' : CProof F G1 G2) (pf pf' : EquProof F G1 G2)
    (h : equ.commitAndProve sch x y crs rng = .ok (cp, r)) (h' : equ'.commitAndProve sch' x' y' crs rng = .ok (cp', r'))
    (hp : cp.equ_proofs = [pf]) (hp' : cp'.equ_proofs = [pf']) :
    let b := equ.b_consts.map fun b => b • (v1 + ⟨0, crs.g2_gen⟩)
    let b' := equ'.b_consts.map fun b => b • (v1 + ⟨0, crs.g2_gen⟩)
    twice e crs b b' equ.gamma equ'.gamma cp.xcoms.coms cp.ycoms.coms cp'.ycoms.coms pf.pi pf'.pi =
      pairSum e (x.map fun x => (⟨0, x⟩ : Com G1))
        (minus (weights b' equ'.gamma cp'.ycoms.coms) (weights b equ.gamma cp.ycoms.coms)) := by
  intro b₁ b₂
  obtain ⟨hx, hy, hd, -, -⟩ := ((C36_commit_and_prove sch crs rng).2.1 equ x y).mp ⟨_, h⟩
  obtain ⟨-, -, hd', -, -⟩ := ((C36_commit_and_prove sch' crs rng).2.1 equ' x' y').mp ⟨_, h'⟩
  have hm := List.length_pos_iff.mpr hx
  have hn := List.length_pos_iff.mpr hy
  rw [hlx, hly] at hd'
  obtain ⟨m, hxm⟩ : ∃ m, x.length = m := ⟨_, rfl⟩
  obtain ⟨n, hyn⟩ : ∃ n, y.length = n := ⟨_, rfl⟩
  rw [hxm] at hm hd hd' hlx
  rw [hyn] at hn hd hd' hly
  obtain ⟨a, ha⟩ := exists_ofFn equ.a_consts hd.a
  obtain ⟨b, hb⟩ := exists_ofFn equ.b_consts hd.b
  obtain ⟨γ, hγ⟩ := rect_iff.mp (⟨hd.rows, hd.cols⟩ : Rect _ _ equ.gamma)
  obtain ⟨a', ha'⟩ := exists_ofFn equ'.a_consts hd'.a
  obtain ⟨b', hb'⟩ := exists_ofFn equ'.b_consts hd'.b
  obtain ⟨γ', hγ'⟩ := rect_iff.mp (⟨hd'.rows, hd'.cols⟩ : Rect _ _ equ'.gamma)
  obtain ⟨x, rfl⟩ := exists_ofFn x hxm
  obtain ⟨y, rfl⟩ := exists_ofFn y hyn
  obtain ⟨x', rfl⟩ := exists_ofFn x' hlx
  obtain ⟨y', rfl⟩ := exists_ofFn y' hly
  obtain ⟨R, S, T, hr⟩ := draws_cut (F := F) (G1 := G1) (G2 := G2) (m := m) (n := n) 2 1 1 2 (2 * m + n + 2) (by omega) rng
  rw [MSMEG1.cap_draws hm hn ha hb hγ x y hu hv hr] at h
  rw [MSMEG1.cap_draws hm hn ha' hb' hγ' x' y' hu hv hr] at h'
  obtain ⟨rfl, -⟩ := Prod.mk.inj (Except.ok.inj h)
  obtain ⟨rfl, -⟩ := Prod.mk.inj (Except.ok.inj h')
  simp only [List.cons.injEq, and_true] at hp hp'
  subst hp hp'
  simp only [b₁, b₂, hγ, hb, hγ', hb', List.map_ofFn, groupCom_sum, scalarCom_sum]
  exact twice_ofFn e (u' := []) (by rw [hu]; simp [List.ofFn_succ]) _ _ _ _ _ γ γ' R S T

/-- C98: two proofs for one MSMEG1 equation from the same state of the generator reveal `x · Γ (y' - y)`, on any CRS. -/
theorem C98_msmeg1_same {ρ : Type} [Rng ρ F G1 G2] {u0 u1 : Com G1} {v0 v1 : Com G2} (hu : crs.u = [u0, u1]) (hv : crs.v = [v0, v1])
    (equ : MSMEG1 F G1) (x x' : List G1) (y y' : List F) (hlx : x'.length = x.length) (hly : y'.length = y.length)
    (sch sch' : Nat → Scheduler) (rng r r' : ρ) (cp cp' : CProof F G1 G2) (pf pf' : EquProof F G1 G2)
    (h : equ.commitAndProve sch x y crs rng = .ok (cp, r)) (h' : equ.commitAndProve sch' x' y' crs rng = .ok (cp', r'))
    (hp : cp.equ_proofs = [pf]) (hp' : cp'.equ_proofs = [pf']) :
    let b := equ.b_consts.map fun b => b • (v1 + ⟨0, crs.g2_gen⟩)
    twice e crs b b equ.gamma equ.gamma cp.xcoms.coms cp.ycoms.coms cp'.ycoms.coms pf.pi pf'.pi =
      ComT.pairing e ⟨0, cross (fun (x : G1) (y : F) => y • x) equ.gamma x (minus y' y)⟩ (v1 + ⟨0, crs.g2_gen⟩) := by
  intro b₁
  rw [C98_msmeg1_formula hu hv equ equ x x' y y' hlx hly sch sch' rng r r' cp cp' pf pf' h h' hp hp']
  obtain ⟨hx, hy, hd, -, -⟩ := ((C36_commit_and_prove sch crs rng).2.1 equ x y).mp ⟨_, h⟩
  have hm := List.length_pos_iff.mpr hx
  have hn := List.length_pos_iff.mpr hy
  obtain ⟨m, hxm⟩ : ∃ m, x.length = m := ⟨_, rfl⟩
  obtain ⟨n, hyn⟩ : ∃ n, y.length = n := ⟨_, rfl⟩
  rw [hxm] at hm hd hlx
  rw [hyn] at hn hd hly
  obtain ⟨a, ha⟩ := exists_ofFn equ.a_consts hd.a
  obtain ⟨b, hb⟩ := exists_ofFn equ.b_consts hd.b
  obtain ⟨γ, hγ⟩ := rect_iff.mp (⟨hd.rows, hd.cols⟩ : Rect _ _ equ.gamma)
  obtain ⟨x, rfl⟩ := exists_ofFn x hxm
  obtain ⟨y, rfl⟩ := exists_ofFn y hyn
  obtain ⟨x', rfl⟩ := exists_ofFn x' hlx
  obtain ⟨y', rfl⟩ := exists_ofFn y' hly
  obtain ⟨R, S, T, hr⟩ := draws_cut (F := F) (G1 := G1) (G2 := G2) (m := m) (n := n) 2 1 1 2 (2 * m + n + 2) (by omega) rng
  rw [MSMEG1.cap_draws hm hn ha hb hγ x y hu hv hr] at h
  rw [MSMEG1.cap_draws hm hn ha hb hγ x' y' hu hv hr] at h'
  obtain ⟨rfl, -⟩ := Prod.mk.inj (Except.ok.inj h)
  obtain ⟨rfl, -⟩ := Prod.mk.inj (Except.ok.inj h')
  simp only [hγ, hb, List.map_ofFn, minus_ofFn, cross_ofFn, groupCom_sum, scalarCom_sum]
  refine (weights_same e _ _ _ _ _ γ).trans ?_
  rw [show ComT.pairing e ⟨0, ∑ i, ∑ j, γ i j • (y' j - y j) • x i⟩ (v1 + ⟨0, crs.g2_gen⟩) =
    tMSMEG1 e (v1 + ⟨0, crs.g2_gen⟩) (∑ i, ∑ j, γ i j • (y' j - y j) • x i) from rfl]
  simp only [map_sum, map_smul]
  refine Finset.sum_congr rfl fun i _ => Finset.sum_congr rfl fun j _ => ?_
  rw [Function.comp_apply, ← sub_smul, map_smul]
  rfl

/-- C98: on a hiding CRS, the pairs of MSMEG1 proofs from a common state of the generator have the same distribution for two pairs
of solutions exactly if these have the same differences and the same `x · Γ (y' - y)`. -/
theorem C98_msmeg1_exact (he : PrimeGroups e) {p1 : G1} {p2 : G2} (h1 : p1 ≠ 0) (h2 : p2 ≠ 0) {a1 a2 t1 t2 : F} (z2 : t2 ≠ 0)
    (equ : MSMEG1 F G1) (x x' z z' : List G1) (y y' w w' : List F) (hx : x ≠ []) (hy : y ≠ []) (hd : equ.Dims x.length y.length)
    (hlx : x'.length = x.length) (hlz : z.length = x.length) (hlz' : z'.length = x.length)
    (hly : y'.length = y.length) (hlw : w.length = y.length) (hlw' : w'.length = y.length)
    (h : equ.Holds x y) (h' : equ.Holds x' y') (k : equ.Holds z w) (k' : equ.Holds z' w')
    (sch sch' sch₁ sch₁' : Nat → Scheduler) :
    let crs := assembleCrs e prepareSimulatedHidingKey p1 p2 a1 a2 t1 t2
    SameViews (N := 2 * x.length + y.length + 2)
      (viewsOn (fun rng => equ.commitAndProve sch x y crs rng) (fun rng => equ.commitAndProve sch' x' y' crs rng))
      (viewsOn (fun rng => equ.commitAndProve sch₁ z w crs rng) (fun rng => equ.commitAndProve sch₁' z' w' crs rng)) ↔
    minus x' x = minus z' z ∧ minus y' y = minus w' w ∧
      cross (fun (x : G1) (y : F) => y • x) equ.gamma x (minus y' y) = cross (fun (x : G1) (y : F) => y • x) equ.gamma z (minus w' w) := by
  intro crs
  obtain ⟨u0, u1, v0, v1, hu, hv, ku, kv⟩ := simulated_keys he h1 h2 (a1 := a1) (a2 := a2) (t1 := t1) (t2 := t2)
  change crs.u = [u0, u1] at hu
  change crs.v = [v0, v1] at hv
  change HidingKey crs.g1_gen a1 t1 u0 u1 at ku
  change HidingKey crs.g2_gen a2 t2 v0 v1 at kv
  generalize crs = crs at hu hv ku kv
  have hm := List.length_pos_iff.mpr hx
  have hn := List.length_pos_iff.mpr hy
  obtain ⟨m, hxm⟩ : ∃ m, x.length = m := ⟨_, rfl⟩
  obtain ⟨n, hyn⟩ : ∃ n, y.length = n := ⟨_, rfl⟩
  rw [hxm] at hm hd hlx hlz hlz'
  rw [hyn] at hn hd hly hlw hlw'
  rw [hxm, hyn]
  obtain ⟨a, ha⟩ := exists_ofFn equ.a_consts hd.a
  obtain ⟨b, hb⟩ := exists_ofFn equ.b_consts hd.b
  obtain ⟨γ, hγ⟩ := rect_iff.mp (⟨hd.rows, hd.cols⟩ : Rect _ _ equ.gamma)
  obtain ⟨x, rfl⟩ := exists_ofFn x hxm
  obtain ⟨y, rfl⟩ := exists_ofFn y hyn
  obtain ⟨x', rfl⟩ := exists_ofFn x' hlx
  obtain ⟨y', rfl⟩ := exists_ofFn y' hly
  obtain ⟨z, rfl⟩ := exists_ofFn z hlz
  obtain ⟨w, rfl⟩ := exists_ofFn w hlw
  obtain ⟨z', rfl⟩ := exists_ofFn z' hlz'
  obtain ⟨w', rfl⟩ := exists_ofFn w' hlw'
  obtain ⟨a, rfl⟩ := exists_scalars ku.cyc a
  obtain ⟨x, rfl⟩ := exists_scalars ku.cyc x
  obtain ⟨x', rfl⟩ := exists_scalars ku.cyc x'
  obtain ⟨z, rfl⟩ := exists_scalars ku.cyc z
  obtain ⟨z', rfl⟩ := exists_scalars ku.cyc z'
  have hg : e crs.g1_gen crs.g2_gen ≠ 0 := fun h0 => (he.nondeg _ _ h0).elim ku.ne kv.ne
  obtain ⟨s, hs⟩ : ∃ s : Fin 2 → F, (i1 (F := F) crs.g1_gen) = ∑ k, s k • ![u0, u1] k := ku.coords _
  obtain ⟨s', hs'⟩ : ∃ s : Fin 1 → F, (v1 + ⟨0, crs.g2_gen⟩) = ∑ k, s k • ![v0] k := ⟨_, kv.coords1⟩
  have hτ : ComT.pairL e (i1 (F := F) crs.g1_gen) (v1 + ⟨0, crs.g2_gen⟩) ≠ 0 := by
    rw [kv.lift, map_smul, kv.h0]
    intro h0
    exact hg (congrArg ComT.t2 ((smul_eq_zero.mp h0).resolve_left z2))
  have hval := fun α x β y => equLhs_scalar (m := m) (n := n) (fun (x : G1) (y : F) => y • x) (fun r => r • crs.g1_gen) (fun r => r) crs.g1_gen (fun x y => by simp [smul_smul, mul_comm]) α x β y γ
  have heq := h.trans k.symm
  have heq' := h'.trans k'.symm
  rw [ha, hb, hγ] at heq heq'
  have heq := smul_cancel ku.ne ((hval _ _ _ _).symm.trans (heq.trans (hval _ _ _ _)))
  have heq' := smul_cancel ku.ne ((hval _ _ _ _).symm.trans (heq'.trans (hval _ _ _ _)))
  rw [sameViews_twice (p := 2) (q := 1) (by omega) (MSMEG1.view_eq hm hn ha hb hγ _ _ hu hv) (MSMEG1.view_eq hm hn ha hb hγ _ _ hu hv)
    (MSMEG1.view_eq hm hn ha hb hγ _ _ hu hv) (MSMEG1.view_eq hm hn ha hb hγ _ _ hu hv)]
  simp only [map_smul]
  rw [twiceFn_iff (ComT.pairL e) hs hs' hτ a b γ x x' z z' y y' w w' heq heq']
  simp only [minus_ofFn, hγ, cross_ofFn, List.ofFn_inj, ← sub_smul]
  refine and_congr (smul_fun_inj ku.ne _ _).symm (and_congr funext_iff.symm ?_)
  simp only [smul_smul, ← Finset.sum_smul]
  refine ⟨fun h => congrArg (· • crs.g1_gen) ?_, fun h => ?_⟩
  · refine Eq.trans ?_ (h.trans ?_) <;>
      exact Finset.sum_congr rfl fun i _ => Finset.sum_congr rfl fun j _ => by ring
  · refine Eq.trans ?_ ((smul_cancel ku.ne h).trans ?_) <;>
      exact Finset.sum_congr rfl fun i _ => Finset.sum_congr rfl fun j _ => by ring

/-- C98: what two proofs for MSMEG2 equations from the same state of the generator reveal, on any CRS. -/
theorem C98_msmeg2_formula {ρ : Type} [Rng ρ F G1 G2] {u0 u1 : Com G1} {v0 v1 : Com G2} (hu : crs.u = [u0, u1]) (hv : crs.v = [v0, v1])
    (equ equ' : MSMEG2 F G2) (x x' : List F) (y y' : List G2) (hlx : x'.length = x.length) (hly : y'.length = y.length)
    (sch sch' : Nat → Scheduler) (rng r r' : ρ) (cp cp' : CProof F G1 G2) (pf pf' : EquProof F G1 G2)
    (h : equ.commitAndProve sch x y crs rng = .ok (cp, r)) (h' : equ'.commitAndProve sch' x' y' crs rng = .ok (cp', r'))
    (hp : cp.equ_proofs = [pf]) (hp' : cp'.equ_proofs = [pf']) :
    let b := equ.b_consts.map fun b => (⟨0, b⟩ : Com G2)
    let b' := equ'.b_consts.map fun b => (⟨0, b⟩ : Com G2)
    twice e crs b b' equ.gamma equ'.gamma cp.xcoms.coms cp.ycoms.coms cp'.ycoms.coms pf.pi pf'.pi =
      pairSum e (x.map fun x => x • (u1 + ⟨0, crs.g1_gen⟩))
        (minus (weights b' equ'.gamma cp'.ycoms.coms) (weights b equ.gamma cp.ycoms.coms)) := by
  intro b₁ b₂
  obtain ⟨hx, hy, hd, -, -⟩ := ((C36_commit_and_prove sch crs rng).2.2.1 equ x y).mp ⟨_, h⟩
  obtain ⟨-, -, hd', -, -⟩ := ((C36_commit_and_prove sch' crs rng).2.2.1 equ' x' y').mp ⟨_, h'⟩
  have hm := List.length_pos_iff.mpr hx
  have hn := List.length_pos_iff.mpr hy
  rw [hlx, hly] at hd'
  obtain ⟨m, hxm⟩ : ∃ m, x.length = m := ⟨_, rfl⟩
  obtain ⟨n, hyn⟩ : ∃ n, y.length = n := ⟨_, rfl⟩
  rw [hxm] at hm hd hd' hlx
  rw [hyn] at hn hd hd' hly
  obtain ⟨a, ha⟩ := exists_ofFn equ.a_consts hd.a
  obtain ⟨b, hb⟩ := exists_ofFn equ.b_consts hd.b
  obtain ⟨γ, hγ⟩ := rect_iff.mp (⟨hd.rows, hd.cols⟩ : Rect _ _ equ.gamma)
  obtain ⟨a', ha'⟩ := exists_ofFn equ'.a_consts hd'.a
  obtain ⟨b', hb'⟩ := exists_ofFn equ'.b_consts hd'.b
  obtain ⟨γ', hγ'⟩ := rect_iff.mp (⟨hd'.rows, hd'.cols⟩ : Rect _ _ equ'.gamma)
  obtain ⟨x, rfl⟩ := exists_ofFn x hxm
  obtain ⟨y, rfl⟩ := exists_ofFn y hyn
  obtain ⟨x', rfl⟩ := exists_ofFn x' hlx
  obtain ⟨y', rfl⟩ := exists_ofFn y' hly
  obtain ⟨R, S, T, hr⟩ := draws_cut (F := F) (G1 := G1) (G2 := G2) (m := m) (n := n) 1 2 2 1 (m + 2 * n + 2) (by omega) rng
  rw [MSMEG2.cap_draws hm hn ha hb hγ x y hu hv hr] at h
  rw [MSMEG2.cap_draws hm hn ha' hb' hγ' x' y' hu hv hr] at h'
  obtain ⟨rfl, -⟩ := Prod.mk.inj (Except.ok.inj h)
  obtain ⟨rfl, -⟩ := Prod.mk.inj (Except.ok.inj h')
  simp only [List.cons.injEq, and_true] at hp hp'
  subst hp hp'
  simp only [b₁, b₂, hγ, hb, hγ', hb', List.map_ofFn, groupCom_sum, scalarCom_sum]
  exact twice_ofFn e (u' := [u1]) (by rw [hu]; simp [List.ofFn_succ]) _ _ _ _ _ γ γ' R S T

/-- C98: two proofs for one MSMEG2 equation from the same state of the generator reveal `x · Γ (y' - y)`, on any CRS. -/
theorem C98_msmeg2_same {ρ : Type} [Rng ρ F G1 G2] {u0 u1 : Com G1} {v0 v1 : Com G2} (hu : crs.u = [u0, u1]) (hv : crs.v = [v0, v1])
    (equ : MSMEG2 F G2) (x x' : List F) (y y' : List G2) (hlx : x'.length = x.length) (hly : y'.length = y.length)
    (sch sch' : Nat → Scheduler) (rng r r' : ρ) (cp cp' : CProof F G1 G2) (pf pf' : EquProof F G1 G2)
    (h : equ.commitAndProve sch x y crs rng = .ok (cp, r)) (h' : equ.commitAndProve sch' x' y' crs rng = .ok (cp', r'))
    (hp : cp.equ_proofs = [pf]) (hp' : cp'.equ_proofs = [pf']) :
    let b := equ.b_consts.map fun b => (⟨0, b⟩ : Com G2)
    twice e crs b b equ.gamma equ.gamma cp.xcoms.coms cp.ycoms.coms cp'.ycoms.coms pf.pi pf'.pi =
      ComT.pairing e (u1 + ⟨0, crs.g1_gen⟩) ⟨0, cross (fun (x : F) (y : G2) => x • y) equ.gamma x (minus y' y)⟩ := by
  intro b₁
  rw [C98_msmeg2_formula hu hv equ equ x x' y y' hlx hly sch sch' rng r r' cp cp' pf pf' h h' hp hp']
  obtain ⟨hx, hy, hd, -, -⟩ := ((C36_commit_and_prove sch crs rng).2.2.1 equ x y).mp ⟨_, h⟩
  have hm := List.length_pos_iff.mpr hx
  have hn := List.length_pos_iff.mpr hy
  obtain ⟨m, hxm⟩ : ∃ m, x.length = m := ⟨_, rfl⟩
  obtain ⟨n, hyn⟩ : ∃ n, y.length = n := ⟨_, rfl⟩
  rw [hxm] at hm hd hlx
  rw [hyn] at hn hd hly
  obtain ⟨a, ha⟩ := exists_ofFn equ.a_consts hd.a
  obtain ⟨b, hb⟩ := exists_ofFn equ.b_consts hd.b
  obtain ⟨γ, hγ⟩ := rect_iff.mp (⟨hd.rows, hd.cols⟩ : Rect _ _ equ.gamma)
  obtain ⟨x, rfl⟩ := exists_ofFn x hxm
  obtain ⟨y, rfl⟩ := exists_ofFn y hyn
  obtain ⟨x', rfl⟩ := exists_ofFn x' hlx
  obtain ⟨y', rfl⟩ := exists_ofFn y' hly
  obtain ⟨R, S, T, hr⟩ := draws_cut (F := F) (G1 := G1) (G2 := G2) (m := m) (n := n) 1 2 2 1 (m + 2 * n + 2) (by omega) rng
  rw [MSMEG2.cap_draws hm hn ha hb hγ x y hu hv hr] at h
  rw [MSMEG2.cap_draws hm hn ha hb hγ x' y' hu hv hr] at h'
  obtain ⟨rfl, -⟩ := Prod.mk.inj (Except.ok.inj h)
  obtain ⟨rfl, -⟩ := Prod.mk.inj (Except.ok.inj h')
  simp only [hγ, hb, List.map_ofFn, minus_ofFn, cross_ofFn, groupCom_sum, scalarCom_sum]
  refine (weights_same e _ _ _ _ _ γ).trans ?_
  rw [show ComT.pairing e (u1 + ⟨0, crs.g1_gen⟩) ⟨0, ∑ i, ∑ j, γ i j • x i • (y' j - y j)⟩ =
    tMSMEG2 e (u1 + ⟨0, crs.g1_gen⟩) (∑ i, ∑ j, γ i j • x i • (y' j - y j)) from rfl]
  simp only [map_sum, map_smul]
  refine Finset.sum_congr rfl fun i _ => Finset.sum_congr rfl fun j _ => ?_
  have hi : (⟨0, y' j⟩ : Com G2) - ⟨0, y j⟩ = i2 (F := F) (y' j - y j) := (map_sub (i2 (F := F)) _ _).symm
  rw [Function.comp_apply, map_smul, LinearMap.smul_apply, hi]
  rfl

/-- C98: on a hiding CRS, the pairs of MSMEG2 proofs from a common state of the generator have the same distribution for two pairs
of solutions exactly if these have the same differences and the same `x · Γ (y' - y)`. -/
theorem C98_msmeg2_exact (he : PrimeGroups e) {p1 : G1} {p2 : G2} (h1 : p1 ≠ 0) (h2 : p2 ≠ 0) {a1 a2 t1 t2 : F} (z1 : t1 ≠ 0)
    (equ : MSMEG2 F G2) (x x' z z' : List F) (y y' w w' : List G2) (hx : x ≠ []) (hy : y ≠ []) (hd : equ.Dims x.length y.length)
    (hlx : x'.length = x.length) (hlz : z.length = x.length) (hlz' : z'.length = x.length)
    (hly : y'.length = y.length) (hlw : w.length = y.length) (hlw' : w'.length = y.length)
    (h : equ.Holds x y) (h' : equ.Holds x' y') (k : equ.Holds z w) (k' : equ.Holds z' w')
    (sch sch' sch₁ sch₁' : Nat → Scheduler) :
    let crs := assembleCrs e prepareSimulatedHidingKey p1 p2 a1 a2 t1 t2
    SameViews (N := x.length + 2 * y.length + 2)
      (viewsOn (fun rng => equ.commitAndProve sch x y crs rng) (fun rng => equ.commitAndProve sch' x' y' crs rng))
      (viewsOn (fun rng => equ.commitAndProve sch₁ z w crs rng) (fun rng => equ.commitAndProve sch₁' z' w' crs rng)) ↔
    minus x' x = minus z' z ∧ minus y' y = minus w' w ∧
      cross (fun (x : F) (y : G2) => x • y) equ.gamma x (minus y' y) = cross (fun (x : F) (y : G2) => x • y) equ.gamma z (minus w' w) := by
  intro crs
  obtain ⟨u0, u1, v0, v1, hu, hv, ku, kv⟩ := simulated_keys he h1 h2 (a1 := a1) (a2 := a2) (t1 := t1) (t2 := t2)
  change crs.u = [u0, u1] at hu
  change crs.v = [v0, v1] at hv
  change HidingKey crs.g1_gen a1 t1 u0 u1 at ku
  change HidingKey crs.g2_gen a2 t2 v0 v1 at kv
  generalize crs = crs at hu hv ku kv
  have hm := List.length_pos_iff.mpr hx
  have hn := List.length_pos_iff.mpr hy
  obtain ⟨m, hxm⟩ : ∃ m, x.length = m := ⟨_, rfl⟩
  obtain ⟨n, hyn⟩ : ∃ n, y.length = n := ⟨_, rfl⟩
  rw [hxm] at hm hd hlx hlz hlz'
  rw [hyn] at hn hd hly hlw hlw'
  rw [hxm, hyn]
  obtain ⟨a, ha⟩ := exists_ofFn equ.a_consts hd.a
  obtain ⟨b, hb⟩ := exists_ofFn equ.b_consts hd.b
  obtain ⟨γ, hγ⟩ := rect_iff.mp (⟨hd.rows, hd.cols⟩ : Rect _ _ equ.gamma)
  obtain ⟨x, rfl⟩ := exists_ofFn x hxm
  obtain ⟨y, rfl⟩ := exists_ofFn y hyn
  obtain ⟨x', rfl⟩ := exists_ofFn x' hlx
  obtain ⟨y', rfl⟩ := exists_ofFn y' hly
  obtain ⟨z, rfl⟩ := exists_ofFn z hlz
  obtain ⟨w, rfl⟩ := exists_ofFn w hlw
  obtain ⟨z', rfl⟩ := exists_ofFn z' hlz'
  obtain ⟨w', rfl⟩ := exists_ofFn w' hlw'
  obtain ⟨b, rfl⟩ := exists_scalars kv.cyc b
  obtain ⟨y, rfl⟩ := exists_scalars kv.cyc y
  obtain ⟨y', rfl⟩ := exists_scalars kv.cyc y'
  obtain ⟨w, rfl⟩ := exists_scalars kv.cyc w
  obtain ⟨w', rfl⟩ := exists_scalars kv.cyc w'
  have hg : e crs.g1_gen crs.g2_gen ≠ 0 := fun h0 => (he.nondeg _ _ h0).elim ku.ne kv.ne
  obtain ⟨s, hs⟩ : ∃ s : Fin 1 → F, (u1 + ⟨0, crs.g1_gen⟩) = ∑ k, s k • ![u0] k := ⟨_, ku.coords1⟩
  obtain ⟨s', hs'⟩ : ∃ s : Fin 2 → F, (i2 (F := F) crs.g2_gen) = ∑ k, s k • ![v0, v1] k := kv.coords _
  have hτ : ComT.pairL e (u1 + ⟨0, crs.g1_gen⟩) (i2 (F := F) crs.g2_gen) ≠ 0 := by
    rw [ku.lift, map_smul, LinearMap.smul_apply, ku.h0]
    intro h0
    exact hg (congrArg ComT.t1 ((smul_eq_zero.mp h0).resolve_left z1))
  have hval := fun α x β y => equLhs_scalar (m := m) (n := n) (fun (x : F) (y : G2) => x • y) (fun r => r) (fun r => r • crs.g2_gen) crs.g2_gen (fun x y => by simp [smul_smul, mul_comm]) α x β y γ
  have heq := h.trans k.symm
  have heq' := h'.trans k'.symm
  rw [ha, hb, hγ] at heq heq'
  have heq := smul_cancel kv.ne ((hval _ _ _ _).symm.trans (heq.trans (hval _ _ _ _)))
  have heq' := smul_cancel kv.ne ((hval _ _ _ _).symm.trans (heq'.trans (hval _ _ _ _)))
  rw [sameViews_twice (p := 1) (q := 2) (by omega) (MSMEG2.view_eq hm hn ha hb hγ _ _ hu hv) (MSMEG2.view_eq hm hn ha hb hγ _ _ hu hv)
    (MSMEG2.view_eq hm hn ha hb hγ _ _ hu hv) (MSMEG2.view_eq hm hn ha hb hγ _ _ hu hv)]
  simp only [map_smul]
  rw [twiceFn_iff (ComT.pairL e) hs hs' hτ a b γ x x' z z' y y' w w' heq heq']
  simp only [minus_ofFn, hγ, cross_ofFn, List.ofFn_inj, ← sub_smul]
  refine and_congr funext_iff.symm (and_congr (smul_fun_inj kv.ne _ _).symm ?_)
  simp only [smul_smul, ← Finset.sum_smul]
  refine ⟨fun h => congrArg (· • crs.g2_gen) ?_, fun h => ?_⟩
  · refine Eq.trans ?_ (h.trans ?_) <;>
      exact Finset.sum_congr rfl fun i _ => Finset.sum_congr rfl fun j _ => by ring
  · refine Eq.trans ?_ ((smul_cancel kv.ne h).trans ?_) <;>
      exact Finset.sum_congr rfl fun i _ => Finset.sum_congr rfl fun j _ => by ring

/-- C98: what two proofs for QuadEqu equations from the same state of the generator reveal, on any CRS. -/
theorem C98_quad_formula {ρ : Type} [Rng ρ F G1 G2] {u0 u1 : Com G1} {v0 v1 : Com G2} (hu : crs.u = [u0, u1]) (hv : crs.v = [v0, v1])
    (equ equ' : QuadEqu F) (x x' : List F) (y y' : List F) (hlx : x'.length = x.length) (hly : y'.length = y.length)
    (sch sch' : Nat → Scheduler) (rng r r' : ρ) (cp cp' : CProof F G1 G2) (pf pf' : EquProof F G1 G2)
    (h : equ.commitAndProve sch x y crs rng = .ok (cp, r)) (h' : equ'.commitAndProve sch' x' y' crs rng = .ok (cp', r'))
    (hp : cp.equ_proofs = [pf]) (hp' : cp'.equ_proofs = [pf']) :
    let b := equ.b_consts.map fun b => b • (v1 + ⟨0, crs.g2_gen⟩)
    let b' := equ'.b_consts.map fun b => b • (v1 + ⟨0, crs.g2_gen⟩)
    twice e crs b b' equ.gamma equ'.gamma cp.xcoms.coms cp.ycoms.coms cp'.ycoms.coms pf.pi pf'.pi =
      pairSum e (x.map fun x => x • (u1 + ⟨0, crs.g1_gen⟩))
        (minus (weights b' equ'.gamma cp'.ycoms.coms) (weights b equ.gamma cp.ycoms.coms)) := by
  intro b₁ b₂
  obtain ⟨hx, hy, hd, -, -⟩ := ((C36_commit_and_prove sch crs rng).2.2.2 equ x y).mp ⟨_, h⟩
  obtain ⟨-, -, hd', -, -⟩ := ((C36_commit_and_prove sch' crs rng).2.2.2 equ' x' y').mp ⟨_, h'⟩
  have hm := List.length_pos_iff.mpr hx
  have hn := List.length_pos_iff.mpr hy
  rw [hlx, hly] at hd'
  obtain ⟨m, hxm⟩ : ∃ m, x.length = m := ⟨_, rfl⟩
  obtain ⟨n, hyn⟩ : ∃ n, y.length = n := ⟨_, rfl⟩
  rw [hxm] at hm hd hd' hlx
  rw [hyn] at hn hd hd' hly
  obtain ⟨a, ha⟩ := exists_ofFn equ.a_consts hd.a
  obtain ⟨b, hb⟩ := exists_ofFn equ.b_consts hd.b
  obtain ⟨γ, hγ⟩ := rect_iff.mp (⟨hd.rows, hd.cols⟩ : Rect _ _ equ.gamma)
  obtain ⟨a', ha'⟩ := exists_ofFn equ'.a_consts hd'.a
  obtain ⟨b', hb'⟩ := exists_ofFn equ'.b_consts hd'.b
  obtain ⟨γ', hγ'⟩ := rect_iff.mp (⟨hd'.rows, hd'.cols⟩ : Rect _ _ equ'.gamma)
  obtain ⟨x, rfl⟩ := exists_ofFn x hxm
  obtain ⟨y, rfl⟩ := exists_ofFn y hyn
  obtain ⟨x', rfl⟩ := exists_ofFn x' hlx
  obtain ⟨y', rfl⟩ := exists_ofFn y' hly
  obtain ⟨R, S, T, hr⟩ := draws_cut (F := F) (G1 := G1) (G2 := G2) (m := m) (n := n) 1 1 1 1 (m + n + 1) (by omega) rng
  rw [QuadEqu.cap_draws hm hn ha hb hγ x y hu hv hr] at h
  rw [QuadEqu.cap_draws hm hn ha' hb' hγ' x' y' hu hv hr] at h'
  obtain ⟨rfl, -⟩ := Prod.mk.inj (Except.ok.inj h)
  obtain ⟨rfl, -⟩ := Prod.mk.inj (Except.ok.inj h')
  simp only [List.cons.injEq, and_true] at hp hp'
  subst hp hp'
  simp only [b₁, b₂, hγ, hb, hγ', hb', List.map_ofFn, scalarCom_sum]
  exact twice_ofFn e (u' := [u1]) (by rw [hu]; simp [List.ofFn_succ]) _ _ _ _ _ γ γ' R S T

/-- C98: two proofs for one QuadEqu equation from the same state of the generator reveal `x · Γ (y' - y)`, on any CRS. -/
theorem C98_quad_same {ρ : Type} [Rng ρ F G1 G2] {u0 u1 : Com G1} {v0 v1 : Com G2} (hu : crs.u = [u0, u1]) (hv : crs.v = [v0, v1])
    (equ : QuadEqu F) (x x' : List F) (y y' : List F) (hlx : x'.length = x.length) (hly : y'.length = y.length)
    (sch sch' : Nat → Scheduler) (rng r r' : ρ) (cp cp' : CProof F G1 G2) (pf pf' : EquProof F G1 G2)
    (h : equ.commitAndProve sch x y crs rng = .ok (cp, r)) (h' : equ.commitAndProve sch' x' y' crs rng = .ok (cp', r'))
    (hp : cp.equ_proofs = [pf]) (hp' : cp'.equ_proofs = [pf']) :
    let b := equ.b_consts.map fun b => b • (v1 + ⟨0, crs.g2_gen⟩)
    twice e crs b b equ.gamma equ.gamma cp.xcoms.coms cp.ycoms.coms cp'.ycoms.coms pf.pi pf'.pi =
      cross (fun (x y : F) => x * y) equ.gamma x (minus y' y) • ComT.pairing e (u1 + ⟨0, crs.g1_gen⟩) (v1 + ⟨0, crs.g2_gen⟩) := by
  intro b₁
  rw [C98_quad_formula hu hv equ equ x x' y y' hlx hly sch sch' rng r r' cp cp' pf pf' h h' hp hp']
  obtain ⟨hx, hy, hd, -, -⟩ := ((C36_commit_and_prove sch crs rng).2.2.2 equ x y).mp ⟨_, h⟩
  have hm := List.length_pos_iff.mpr hx
  have hn := List.length_pos_iff.mpr hy
  obtain ⟨m, hxm⟩ : ∃ m, x.length = m := ⟨_, rfl⟩
  obtain ⟨n, hyn⟩ : ∃ n, y.length = n := ⟨_, rfl⟩
  rw [hxm] at hm hd hlx
  rw [hyn] at hn hd hly
  obtain ⟨a, ha⟩ := exists_ofFn equ.a_consts hd.a
  obtain ⟨b, hb⟩ := exists_ofFn equ.b_consts hd.b
  obtain ⟨γ, hγ⟩ := rect_iff.mp (⟨hd.rows, hd.cols⟩ : Rect _ _ equ.gamma)
  obtain ⟨x, rfl⟩ := exists_ofFn x hxm
  obtain ⟨y, rfl⟩ := exists_ofFn y hyn
  obtain ⟨x', rfl⟩ := exists_ofFn x' hlx
  obtain ⟨y', rfl⟩ := exists_ofFn y' hly
  obtain ⟨R, S, T, hr⟩ := draws_cut (F := F) (G1 := G1) (G2 := G2) (m := m) (n := n) 1 1 1 1 (m + n + 1) (by omega) rng
  rw [QuadEqu.cap_draws hm hn ha hb hγ x y hu hv hr] at h
  rw [QuadEqu.cap_draws hm hn ha hb hγ x' y' hu hv hr] at h'
  obtain ⟨rfl, -⟩ := Prod.mk.inj (Except.ok.inj h)
  obtain ⟨rfl, -⟩ := Prod.mk.inj (Except.ok.inj h')
  simp only [hγ, hb, List.map_ofFn, minus_ofFn, cross_ofFn, scalarCom_sum]
  refine (weights_same e _ _ _ _ _ γ).trans ?_
  simp only [Finset.sum_smul]
  refine Finset.sum_congr rfl fun i _ => Finset.sum_congr rfl fun j _ => ?_
  rw [Function.comp_apply, ← sub_smul, map_smul, map_smul, LinearMap.smul_apply, ComT.pairL_apply, smul_smul, smul_smul, smul_eq_mul]
  congr 1; ring

/-- C98: on a hiding CRS, the pairs of QuadEqu proofs from a common state of the generator have the same distribution for two pairs
of solutions exactly if these have the same differences and the same `x · Γ (y' - y)`. -/
theorem C98_quad_exact (he : PrimeGroups e) {p1 : G1} {p2 : G2} (h1 : p1 ≠ 0) (h2 : p2 ≠ 0) {a1 a2 t1 t2 : F} (z1 : t1 ≠ 0) (z2 : t2 ≠ 0)
    (equ : QuadEqu F) (x x' z z' : List F) (y y' w w' : List F) (hx : x ≠ []) (hy : y ≠ []) (hd : equ.Dims x.length y.length)
    (hlx : x'.length = x.length) (hlz : z.length = x.length) (hlz' : z'.length = x.length)
    (hly : y'.length = y.length) (hlw : w.length = y.length) (hlw' : w'.length = y.length)
    (h : equ.Holds x y) (h' : equ.Holds x' y') (k : equ.Holds z w) (k' : equ.Holds z' w')
    (sch sch' sch₁ sch₁' : Nat → Scheduler) :
    let crs := assembleCrs e prepareSimulatedHidingKey p1 p2 a1 a2 t1 t2
    SameViews (N := x.length + y.length + 1)
      (viewsOn (fun rng => equ.commitAndProve sch x y crs rng) (fun rng => equ.commitAndProve sch' x' y' crs rng))
      (viewsOn (fun rng => equ.commitAndProve sch₁ z w crs rng) (fun rng => equ.commitAndProve sch₁' z' w' crs rng)) ↔
    minus x' x = minus z' z ∧ minus y' y = minus w' w ∧
      cross (fun (x y : F) => x * y) equ.gamma x (minus y' y) = cross (fun (x y : F) => x * y) equ.gamma z (minus w' w) := by
  intro crs
  obtain ⟨u0, u1, v0, v1, hu, hv, ku, kv⟩ := simulated_keys he h1 h2 (a1 := a1) (a2 := a2) (t1 := t1) (t2 := t2)
  change crs.u = [u0, u1] at hu
  change crs.v = [v0, v1] at hv
  change HidingKey crs.g1_gen a1 t1 u0 u1 at ku
  change HidingKey crs.g2_gen a2 t2 v0 v1 at kv
  generalize crs = crs at hu hv ku kv
  have hm := List.length_pos_iff.mpr hx
  have hn := List.length_pos_iff.mpr hy
  obtain ⟨m, hxm⟩ : ∃ m, x.length = m := ⟨_, rfl⟩
  obtain ⟨n, hyn⟩ : ∃ n, y.length = n := ⟨_, rfl⟩
  rw [hxm] at hm hd hlx hlz hlz'
  rw [hyn] at hn hd hly hlw hlw'
  rw [hxm, hyn]
  obtain ⟨a, ha⟩ := exists_ofFn equ.a_consts hd.a
  obtain ⟨b, hb⟩ := exists_ofFn equ.b_consts hd.b
  obtain ⟨γ, hγ⟩ := rect_iff.mp (⟨hd.rows, hd.cols⟩ : Rect _ _ equ.gamma)
  obtain ⟨x, rfl⟩ := exists_ofFn x hxm
  obtain ⟨y, rfl⟩ := exists_ofFn y hyn
  obtain ⟨x', rfl⟩ := exists_ofFn x' hlx
  obtain ⟨y', rfl⟩ := exists_ofFn y' hly
  obtain ⟨z, rfl⟩ := exists_ofFn z hlz
  obtain ⟨w, rfl⟩ := exists_ofFn w hlw
  obtain ⟨z', rfl⟩ := exists_ofFn z' hlz'
  obtain ⟨w', rfl⟩ := exists_ofFn w' hlw'
  have hg : e crs.g1_gen crs.g2_gen ≠ 0 := fun h0 => (he.nondeg _ _ h0).elim ku.ne kv.ne
  obtain ⟨s, hs⟩ : ∃ s : Fin 1 → F, (u1 + ⟨0, crs.g1_gen⟩) = ∑ k, s k • ![u0] k := ⟨_, ku.coords1⟩
  obtain ⟨s', hs'⟩ : ∃ s : Fin 1 → F, (v1 + ⟨0, crs.g2_gen⟩) = ∑ k, s k • ![v0] k := ⟨_, kv.coords1⟩
  have hτ : ComT.pairL e (u1 + ⟨0, crs.g1_gen⟩) (v1 + ⟨0, crs.g2_gen⟩) ≠ 0 := by
    rw [ku.lift, kv.lift, map_smul, map_smul, LinearMap.smul_apply, ku.h0, kv.h0]
    intro h0
    exact hg (congrArg ComT.t0 ((smul_eq_zero.mp ((smul_eq_zero.mp h0).resolve_left z2)).resolve_left z1))
  have hval := fun α x β y => equLhs_scalar (m := m) (n := n) (fun (x y : F) => x * y) (fun r => r) (fun r => r) (1 : F) (fun x y => by simp [smul_smul, mul_comm]) α x β y γ
  have heq := h.trans k.symm
  have heq' := h'.trans k'.symm
  rw [ha, hb, hγ] at heq heq'
  have heq := smul_cancel one_ne_zero ((hval _ _ _ _).symm.trans (heq.trans (hval _ _ _ _)))
  have heq' := smul_cancel one_ne_zero ((hval _ _ _ _).symm.trans (heq'.trans (hval _ _ _ _)))
  rw [sameViews_twice (p := 1) (q := 1) (by omega) (QuadEqu.view_eq hm hn ha hb hγ _ _ hu hv) (QuadEqu.view_eq hm hn ha hb hγ _ _ hu hv)
    (QuadEqu.view_eq hm hn ha hb hγ _ _ hu hv) (QuadEqu.view_eq hm hn ha hb hγ _ _ hu hv)]
  rw [twiceFn_iff (ComT.pairL e) hs hs' hτ a b γ x x' z z' y y' w w' heq heq']
  simp only [minus_ofFn, hγ, cross_ofFn, List.ofFn_inj, ← sub_smul]
  exact and_congr funext_iff.symm (and_congr funext_iff.symm Iff.rfl)

/-- Two pairs of solutions of `ppe7` with the same differences that are told apart, and two that are not. -/
example (sch : Nat → Scheduler) :
    ¬ SameViews (N := 10) (viewsOn (fun rng => Ex.ppe7.commitAndProve sch [2] [3, 4] Ex.sim7 rng) (fun rng => Ex.ppe7.commitAndProve sch [0] [1, 0] Ex.sim7 rng))
      (viewsOn (fun rng => Ex.ppe7.commitAndProve sch [5] [3, 0] Ex.sim7 rng) (fun rng => Ex.ppe7.commitAndProve sch [3] [1, 3] Ex.sim7 rng)) ∧
    SameViews (N := 10) (viewsOn (fun rng => Ex.ppe7.commitAndProve sch [2] [3, 4] Ex.sim7 rng) (fun rng => Ex.ppe7.commitAndProve sch [0] [1, 0] Ex.sim7 rng))
      (viewsOn (fun rng => Ex.ppe7.commitAndProve sch [2] [1, 5] Ex.sim7 rng) (fun rng => Ex.ppe7.commitAndProve sch [0] [6, 1] Ex.sim7 rng)) := by
  have key := fun z w z' w' (hz : z.length = 1) (hw : w.length = 2) (hz' : z'.length = 1) (hw' : w'.length = 2) k k' =>
    C98_ppe_exact Ex.prime7 (p1 := 1) (p2 := 2) (a1 := 3) (a2 := 4) (t1 := 5) (t2 := 6) (by decide) (by decide) Ex.ppe7 [2] [0] z z' [3, 4] [1, 0] w w' (by simp) (by simp)
      Ex.ppe7_dims rfl hz hz' rfl hw hw' Ex.ppe7_holds Ex.ppe7_holds' k k' sch sch sch sch
  refine ⟨fun h => ?_, ?_⟩
  · exact absurd ((key [5] [3, 0] [3] [1, 3] rfl rfl rfl rfl (by unfold PPE.Holds; decide) (by unfold PPE.Holds; decide)).mp h).2.2 (by decide)
  · exact (key [2] [1, 5] [0] [6, 1] rfl rfl rfl rfl (by unfold PPE.Holds; decide) (by unfold PPE.Holds; decide)).mpr (by decide)

/-- Two pairs of solutions of `msm1_7` with the same differences that are told apart, and two that are not. -/
example (sch : Nat → Scheduler) :
    ¬ SameViews (N := 6) (viewsOn (fun rng => Ex.msm1_7.commitAndProve sch [2] [3, 4] Ex.sim7 rng) (fun rng => Ex.msm1_7.commitAndProve sch [0] [1, 0] Ex.sim7 rng))
      (viewsOn (fun rng => Ex.msm1_7.commitAndProve sch [5] [3, 0] Ex.sim7 rng) (fun rng => Ex.msm1_7.commitAndProve sch [3] [1, 3] Ex.sim7 rng)) ∧
    SameViews (N := 6) (viewsOn (fun rng => Ex.msm1_7.commitAndProve sch [2] [3, 4] Ex.sim7 rng) (fun rng => Ex.msm1_7.commitAndProve sch [0] [1, 0] Ex.sim7 rng))
      (viewsOn (fun rng => Ex.msm1_7.commitAndProve sch [2] [1, 5] Ex.sim7 rng) (fun rng => Ex.msm1_7.commitAndProve sch [0] [6, 1] Ex.sim7 rng)) := by
  have key := fun z w z' w' (hz : z.length = 1) (hw : w.length = 2) (hz' : z'.length = 1) (hw' : w'.length = 2) k k' =>
    C98_msmeg1_exact Ex.prime7 (p1 := 1) (p2 := 2) (a1 := 3) (a2 := 4) (t1 := 5) (t2 := 6) (by decide) (by decide) (by decide) Ex.msm1_7 [2] [0] z z' [3, 4] [1, 0] w w' (by simp) (by simp)
      Ex.msm1_7_dims rfl hz hz' rfl hw hw' Ex.msm1_7_holds Ex.msm1_7_holds' k k' sch sch sch sch
  refine ⟨fun h => ?_, ?_⟩
  · exact absurd ((key [5] [3, 0] [3] [1, 3] rfl rfl rfl rfl (by unfold MSMEG1.Holds; decide) (by unfold MSMEG1.Holds; decide)).mp h).2.2 (by decide)
  · exact (key [2] [1, 5] [0] [6, 1] rfl rfl rfl rfl (by unfold MSMEG1.Holds; decide) (by unfold MSMEG1.Holds; decide)).mpr (by decide)

/-- Two pairs of solutions of `msm2_7` with the same differences that are told apart, and two that are not. -/
example (sch : Nat → Scheduler) :
    ¬ SameViews (N := 7) (viewsOn (fun rng => Ex.msm2_7.commitAndProve sch [2] [3, 4] Ex.sim7 rng) (fun rng => Ex.msm2_7.commitAndProve sch [0] [1, 0] Ex.sim7 rng))
      (viewsOn (fun rng => Ex.msm2_7.commitAndProve sch [5] [3, 0] Ex.sim7 rng) (fun rng => Ex.msm2_7.commitAndProve sch [3] [1, 3] Ex.sim7 rng)) ∧
    SameViews (N := 7) (viewsOn (fun rng => Ex.msm2_7.commitAndProve sch [2] [3, 4] Ex.sim7 rng) (fun rng => Ex.msm2_7.commitAndProve sch [0] [1, 0] Ex.sim7 rng))
      (viewsOn (fun rng => Ex.msm2_7.commitAndProve sch [2] [1, 5] Ex.sim7 rng) (fun rng => Ex.msm2_7.commitAndProve sch [0] [6, 1] Ex.sim7 rng)) := by
  have key := fun z w z' w' (hz : z.length = 1) (hw : w.length = 2) (hz' : z'.length = 1) (hw' : w'.length = 2) k k' =>
    C98_msmeg2_exact Ex.prime7 (p1 := 1) (p2 := 2) (a1 := 3) (a2 := 4) (t1 := 5) (t2 := 6) (by decide) (by decide) (by decide) Ex.msm2_7 [2] [0] z z' [3, 4] [1, 0] w w' (by simp) (by simp)
      Ex.msm2_7_dims rfl hz hz' rfl hw hw' Ex.msm2_7_holds Ex.msm2_7_holds' k k' sch sch sch sch
  refine ⟨fun h => ?_, ?_⟩
  · exact absurd ((key [5] [3, 0] [3] [1, 3] rfl rfl rfl rfl (by unfold MSMEG2.Holds; decide) (by unfold MSMEG2.Holds; decide)).mp h).2.2 (by decide)
  · exact (key [2] [1, 5] [0] [6, 1] rfl rfl rfl rfl (by unfold MSMEG2.Holds; decide) (by unfold MSMEG2.Holds; decide)).mpr (by decide)

/-- Two pairs of solutions of `quad7` with the same differences that are told apart, and two that are not. -/
example (sch : Nat → Scheduler) :
    ¬ SameViews (N := 4) (viewsOn (fun rng => Ex.quad7.commitAndProve sch [2] [3, 4] Ex.sim7 rng) (fun rng => Ex.quad7.commitAndProve sch [0] [1, 0] Ex.sim7 rng))
      (viewsOn (fun rng => Ex.quad7.commitAndProve sch [5] [3, 0] Ex.sim7 rng) (fun rng => Ex.quad7.commitAndProve sch [3] [1, 3] Ex.sim7 rng)) ∧
    SameViews (N := 4) (viewsOn (fun rng => Ex.quad7.commitAndProve sch [2] [3, 4] Ex.sim7 rng) (fun rng => Ex.quad7.commitAndProve sch [0] [1, 0] Ex.sim7 rng))
      (viewsOn (fun rng => Ex.quad7.commitAndProve sch [2] [1, 5] Ex.sim7 rng) (fun rng => Ex.quad7.commitAndProve sch [0] [6, 1] Ex.sim7 rng)) := by
  have key := fun z w z' w' (hz : z.length = 1) (hw : w.length = 2) (hz' : z'.length = 1) (hw' : w'.length = 2) k k' =>
    C98_quad_exact Ex.prime7 (p1 := 1) (p2 := 2) (a1 := 3) (a2 := 4) (t1 := 5) (t2 := 6) (by decide) (by decide) (by decide) (by decide) Ex.quad7 [2] [0] z z' [3, 4] [1, 0] w w' (by simp) (by simp)
      Ex.quad7_dims rfl hz hz' rfl hw hw' Ex.quad7_holds Ex.quad7_holds' k k' sch sch sch sch
  refine ⟨fun h => ?_, ?_⟩
  · exact absurd ((key [5] [3, 0] [3] [1, 3] rfl rfl rfl rfl (by unfold QuadEqu.Holds; decide) (by unfold QuadEqu.Holds; decide)).mp h).2.2 (by decide)
  · exact (key [2] [1, 5] [0] [6, 1] rfl rfl rfl rfl (by unfold QuadEqu.Holds; decide) (by unfold QuadEqu.Holds; decide)).mpr (by decide)

/-- Two solutions of `ppe7` proved from the same state: the revealed `x · Γ (y' - y)` is `1`. -/
example (sch sch' : Nat → Scheduler) : ∃ u0 u1 v0 v1 cp r cp' r' pf pf', Ex.crs7.u = [u0, u1] ∧ Ex.crs7.v = [v0, v1] ∧
    Ex.ppe7.commitAndProve sch [2] [3, 4] Ex.crs7 (5 : Nat) = .ok (cp, r) ∧ Ex.ppe7.commitAndProve sch' [0] [1, 0] Ex.crs7 (5 : Nat) = .ok (cp', r') ∧
    cp.equ_proofs = [pf] ∧ cp'.equ_proofs = [pf'] ∧ cross (fun x y => Ex.e7 x y) Ex.ppe7.gamma [2] (minus [1, 0] [3, 4]) = 1 := by
  obtain ⟨⟨cp, r⟩, h⟩ := ((C36_commit_and_prove (F := Ex.K) sch Ex.crs7 (5 : Nat)).1 Ex.ppe7 [2] [3, 4]).mpr ⟨by simp, by simp, Ex.ppe7_dims, by decide, by decide⟩
  obtain ⟨⟨cp', r'⟩, h'⟩ := ((C36_commit_and_prove (F := Ex.K) sch' Ex.crs7 (5 : Nat)).1 Ex.ppe7 [0] [1, 0]).mpr ⟨by simp, by simp, Ex.ppe7_dims, by decide, by decide⟩
  obtain ⟨-, -, pf, hp, -⟩ := (C38_commit_and_prove _ _ _ _ cp).1 _ _ _ h
  obtain ⟨-, -, pf', hp', -⟩ := (C38_commit_and_prove _ _ _ _ cp').1 _ _ _ h'
  exact ⟨_, _, _, _, cp, r, cp', r', pf, pf', rfl, rfl, h, h', hp, hp', by decide⟩

/-- Two solutions of `msm1_7` proved from the same state: the revealed `x · Γ (y' - y)` is `1`. -/
example (sch sch' : Nat → Scheduler) : ∃ u0 u1 v0 v1 cp r cp' r' pf pf', Ex.crs7.u = [u0, u1] ∧ Ex.crs7.v = [v0, v1] ∧
    Ex.msm1_7.commitAndProve sch [2] [3, 4] Ex.crs7 (5 : Nat) = .ok (cp, r) ∧ Ex.msm1_7.commitAndProve sch' [0] [1, 0] Ex.crs7 (5 : Nat) = .ok (cp', r') ∧
    cp.equ_proofs = [pf] ∧ cp'.equ_proofs = [pf'] ∧ cross (fun x y : Ex.K => y • x) Ex.msm1_7.gamma [2] (minus [1, 0] [3, 4]) = 1 := by
  obtain ⟨⟨cp, r⟩, h⟩ := ((C36_commit_and_prove (F := Ex.K) sch Ex.crs7 (5 : Nat)).2.1 Ex.msm1_7 [2] [3, 4]).mpr ⟨by simp, by simp, Ex.msm1_7_dims, by decide, by decide⟩
  obtain ⟨⟨cp', r'⟩, h'⟩ := ((C36_commit_and_prove (F := Ex.K) sch' Ex.crs7 (5 : Nat)).2.1 Ex.msm1_7 [0] [1, 0]).mpr ⟨by simp, by simp, Ex.msm1_7_dims, by decide, by decide⟩
  obtain ⟨-, -, pf, hp, -⟩ := (C38_commit_and_prove _ _ _ _ cp).2.1 _ _ _ h
  obtain ⟨-, -, pf', hp', -⟩ := (C38_commit_and_prove _ _ _ _ cp').2.1 _ _ _ h'
  exact ⟨_, _, _, _, cp, r, cp', r', pf, pf', rfl, rfl, h, h', hp, hp', by decide⟩

/-- Two solutions of `msm2_7` proved from the same state: the revealed `x · Γ (y' - y)` is `1`. -/
example (sch sch' : Nat → Scheduler) : ∃ u0 u1 v0 v1 cp r cp' r' pf pf', Ex.crs7.u = [u0, u1] ∧ Ex.crs7.v = [v0, v1] ∧
    Ex.msm2_7.commitAndProve sch [2] [3, 4] Ex.crs7 (5 : Nat) = .ok (cp, r) ∧ Ex.msm2_7.commitAndProve sch' [0] [1, 0] Ex.crs7 (5 : Nat) = .ok (cp', r') ∧
    cp.equ_proofs = [pf] ∧ cp'.equ_proofs = [pf'] ∧ cross (fun x y : Ex.K => x • y) Ex.msm2_7.gamma [2] (minus [1, 0] [3, 4]) = 1 := by
  obtain ⟨⟨cp, r⟩, h⟩ := ((C36_commit_and_prove (F := Ex.K) sch Ex.crs7 (5 : Nat)).2.2.1 Ex.msm2_7 [2] [3, 4]).mpr ⟨by simp, by simp, Ex.msm2_7_dims, by decide, by decide⟩
  obtain ⟨⟨cp', r'⟩, h'⟩ := ((C36_commit_and_prove (F := Ex.K) sch' Ex.crs7 (5 : Nat)).2.2.1 Ex.msm2_7 [0] [1, 0]).mpr ⟨by simp, by simp, Ex.msm2_7_dims, by decide, by decide⟩
  obtain ⟨-, -, pf, hp, -⟩ := (C38_commit_and_prove _ _ _ _ cp).2.2.1 _ _ _ h
  obtain ⟨-, -, pf', hp', -⟩ := (C38_commit_and_prove _ _ _ _ cp').2.2.1 _ _ _ h'
  exact ⟨_, _, _, _, cp, r, cp', r', pf, pf', rfl, rfl, h, h', hp, hp', by decide⟩

/-- Two solutions of `quad7` proved from the same state: the revealed `x · Γ (y' - y)` is `1`. -/
example (sch sch' : Nat → Scheduler) : ∃ u0 u1 v0 v1 cp r cp' r' pf pf', Ex.crs7.u = [u0, u1] ∧ Ex.crs7.v = [v0, v1] ∧
    Ex.quad7.commitAndProve sch [2] [3, 4] Ex.crs7 (5 : Nat) = .ok (cp, r) ∧ Ex.quad7.commitAndProve sch' [0] [1, 0] Ex.crs7 (5 : Nat) = .ok (cp', r') ∧
    cp.equ_proofs = [pf] ∧ cp'.equ_proofs = [pf'] ∧ cross (fun x y : Ex.K => x * y) Ex.quad7.gamma [2] (minus [1, 0] [3, 4]) = 1 := by
  obtain ⟨⟨cp, r⟩, h⟩ := ((C36_commit_and_prove (F := Ex.K) sch Ex.crs7 (5 : Nat)).2.2.2 Ex.quad7 [2] [3, 4]).mpr ⟨by simp, by simp, Ex.quad7_dims, by decide, by decide⟩
  obtain ⟨⟨cp', r'⟩, h'⟩ := ((C36_commit_and_prove (F := Ex.K) sch' Ex.crs7 (5 : Nat)).2.2.2 Ex.quad7 [0] [1, 0]).mpr ⟨by simp, by simp, Ex.quad7_dims, by decide, by decide⟩
  obtain ⟨-, -, pf, hp, -⟩ := (C38_commit_and_prove _ _ _ _ cp).2.2.2 _ _ _ h
  obtain ⟨-, -, pf', hp', -⟩ := (C38_commit_and_prove _ _ _ _ cp').2.2.2 _ _ _ h'
  exact ⟨_, _, _, _, cp, r, cp', r', pf, pf', rfl, rfl, h, h', hp, hp', by decide⟩

/-! ### Instances -/

namespace Ex

example := C98_ppe_formula (e := e7) (crs := crs7) rfl rfl ppe7 ppe7 [2] [0] [3, 4] [1, 0] rfl rfl (fun _ => seqSched) (fun _ => seqSched) (1 : Nat) _ _ _ _ _ _ rfl rfl rfl rfl
example := C98_ppe_same (e := e7) (crs := crs7) rfl rfl ppe7 [2] [0] [3, 4] [1, 0] rfl rfl (fun _ => seqSched) (fun _ => seqSched) (1 : Nat) _ _ _ _ _ _ rfl rfl rfl rfl
example := C98_msmeg1_formula (e := e7) (crs := crs7) rfl rfl msm1_7 msm1_7 [2] [0] [3, 4] [1, 0] rfl rfl (fun _ => seqSched) (fun _ => seqSched) (1 : Nat) _ _ _ _ _ _ rfl rfl rfl rfl
example := C98_msmeg1_same (e := e7) (crs := crs7) rfl rfl msm1_7 [2] [0] [3, 4] [1, 0] rfl rfl (fun _ => seqSched) (fun _ => seqSched) (1 : Nat) _ _ _ _ _ _ rfl rfl rfl rfl
example := C98_msmeg2_formula (e := e7) (crs := crs7) rfl rfl msm2_7 msm2_7 [2] [0] [3, 4] [1, 0] rfl rfl (fun _ => seqSched) (fun _ => seqSched) (1 : Nat) _ _ _ _ _ _ rfl rfl rfl rfl
example := C98_msmeg2_same (e := e7) (crs := crs7) rfl rfl msm2_7 [2] [0] [3, 4] [1, 0] rfl rfl (fun _ => seqSched) (fun _ => seqSched) (1 : Nat) _ _ _ _ _ _ rfl rfl rfl rfl
example := C98_quad_formula (e := e7) (crs := crs7) rfl rfl quad7 quad7 [2] [0] [3, 4] [1, 0] rfl rfl (fun _ => seqSched) (fun _ => seqSched) (1 : Nat) _ _ _ _ _ _ rfl rfl rfl rfl
example := C98_quad_same (e := e7) (crs := crs7) rfl rfl quad7 [2] [0] [3, 4] [1, 0] rfl rfl (fun _ => seqSched) (fun _ => seqSched) (1 : Nat) _ _ _ _ _ _ rfl rfl rfl rfl

end Ex

end GS
