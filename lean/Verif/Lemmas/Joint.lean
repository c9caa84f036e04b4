import Verif.Lemmas.Couple
import Verif.Spec.Joint

/-! Coupling of provers and simulators of whole statements on a simulated key. -/

set_option linter.unusedSectionVars false
set_option linter.unusedVariables false

namespace GS
variable {F G G1 G2 GT : Type} [Field F] [AddCommGroup G] [Module F G] [AddCommGroup G1] [Module F G1]
  [AddCommGroup G2] [Module F G2] [AddCommGroup GT] [Module F GT]

/-! ### Commitments -/

section commit
variable {g : G} {a t : F} {u0 u1 : Com G}

theorem coupled_group (k : HidingKey g a t u0 u1) {batch : List G → List F → Res (Commit F G × List F)}
    (hb : ∀ {m : Nat} (hm : 0 < m) (x : Fin m → G) (R : Fin m → Fin 2 → F) (rest : List F),
      batch (List.ofFn x) ((matOf R).flatten ++ rest) =
        .ok (⟨List.ofFn fun i => groupCom u0 u1 (x i) (R i 0, R i 1), matOf R⟩, rest))
    (x x' : List G) (hl : x'.length = x.length) :
    Coupled (2 * x.length) (commitUnlessEmpty batch x) (commitUnlessEmpty batch x') fun c c' =>
      c.coms = c'.coms ∧ c.OpensGroup [u0, u1] x ∧ c'.OpensGroup [u0, u1] x' := by
  by_cases hx : x = []
  · subst hx
    obtain rfl : x' = [] := List.length_eq_zero_iff.mp hl
    exact Coupled.pure ⟨rfl, ⟨u0, u1, [], rfl, [], rfl, rfl, rfl⟩, ⟨u0, u1, [], rfl, [], rfl, rfl, rfl⟩⟩
  have hm := List.length_pos_iff.mpr hx
  have hx' : x' ≠ [] := List.length_pos_iff.mp (hl ▸ hm)
  have e : ∀ x : List G, x ≠ [] → commitUnlessEmpty batch x = batch x := by
    intro x hx; cases x
    · exact absurd rfl hx
    · rfl
  rw [e x hx, e x' hx']
  obtain ⟨m, hxm⟩ : ∃ m, x.length = m := ⟨_, rfl⟩
  rw [hxm] at hm hl ⊢
  obtain ⟨x, rfl⟩ := exists_ofFn x hxm
  obtain ⟨x', rfl⟩ := exists_ofFn x' hl
  obtain ⟨φ, hφ⟩ := exists_comEquiv (m := m) k.indep2 (x := fun i => (⟨0, x i⟩ : Com G))
    (x' := fun i => (⟨0, x' i⟩ : Com G)) (fun _ => k.span2 _) (fun _ => k.span2 _)
  refine Coupled.of_mat (Nat.mul_comm _ _) (hb hm x) (hb hm x') ⟨φ, fun R => ⟨?_, ?_, ?_⟩⟩
  · simp only [groupCom_sum]
    rw [hφ]
  · exact opensGroup_ofFn.mpr ⟨u0, u1, [], rfl, R, rfl, groupCom_sum ..⟩
  · exact opensGroup_ofFn.mpr ⟨u0, u1, [], rfl, φ R, rfl, groupCom_sum ..⟩

theorem coupled_scalar (k : HidingKey g a t u0 u1) {batch : List F → List F → Res (Commit F G × List F)}
    (hb : ∀ {m : Nat} (hm : 0 < m) (x : Fin m → F) (R : Fin m → Fin 1 → F) (rest : List F),
      batch (List.ofFn x) ((matOf R).flatten ++ rest) =
        .ok (⟨List.ofFn fun i => scalarCom u0 u1 g (x i) (R i 0), matOf R⟩, rest))
    (x x' : List F) (hl : x'.length = x.length) :
    Coupled x.length (commitUnlessEmpty batch x) (commitUnlessEmpty batch x') fun c c' =>
      c.coms = c'.coms ∧ c.OpensScalar [u0, u1] g x ∧ c'.OpensScalar [u0, u1] g x' := by
  by_cases hx : x = []
  · subst hx
    obtain rfl : x' = [] := List.length_eq_zero_iff.mp hl
    exact Coupled.pure ⟨rfl, ⟨u0, u1, [], rfl, [], rfl, rfl, rfl⟩, ⟨u0, u1, [], rfl, [], rfl, rfl, rfl⟩⟩
  have hm := List.length_pos_iff.mpr hx
  have hx' : x' ≠ [] := List.length_pos_iff.mp (hl ▸ hm)
  have e : ∀ x : List F, x ≠ [] → commitUnlessEmpty batch x = batch x := by
    intro x hx; cases x
    · exact absurd rfl hx
    · rfl
  rw [e x hx, e x' hx']
  obtain ⟨m, hxm⟩ : ∃ m, x.length = m := ⟨_, rfl⟩
  rw [hxm] at hm hl ⊢
  obtain ⟨x, rfl⟩ := exists_ofFn x hxm
  obtain ⟨x', rfl⟩ := exists_ofFn x' hl
  obtain ⟨φ, hφ⟩ := exists_comEquiv (m := m) k.indep1 (x := fun i => x i • (u1 + (⟨0, g⟩ : Com G)))
    (x' := fun i => x' i • (u1 + (⟨0, g⟩ : Com G))) (fun _ => k.span1 _) (fun _ => k.span1 _)
  refine Coupled.of_mat (Nat.mul_one _).symm (hb hm x) (hb hm x') ⟨φ, fun R => ⟨?_, ?_, ?_⟩⟩
  · simp only [scalarCom_sum]
    rw [hφ]
  · exact opensScalar_ofFn.mpr ⟨u0, u1, [], rfl, R, rfl, scalarCom_sum ..⟩
  · exact opensScalar_ofFn.mpr ⟨u0, u1, [], rfl, φ R, rfl, scalarCom_sum ..⟩

end commit

/-- The same commitment values, opened to `w` on one side and to `w'` on the other. -/
structure SameComs (crs : CRS G1 G2 GT) (w w' : Vars F G1 G2) (c c' : VarComs F G1 G2) : Prop where
  eX : c.X.coms = c'.X.coms
  ex : c.x.coms = c'.x.coms
  eY : c.Y.coms = c'.Y.coms
  ey : c.y.coms = c'.y.coms
  oX : c.X.OpensGroup crs.u w.X
  ox : c.x.OpensScalar crs.u crs.g1_gen w.x
  oY : c.Y.OpensGroup crs.v w.Y
  oy : c.y.OpensScalar crs.v crs.g2_gen w.y
  oX' : c'.X.OpensGroup crs.u w'.X
  ox' : c'.x.OpensScalar crs.u crs.g1_gen w'.x
  oY' : c'.Y.OpensGroup crs.v w'.Y
  oy' : c'.y.OpensScalar crs.v crs.g2_gen w'.y

section statements
variable {crs : CRS G1 G2 GT} {a1 a2 t1 t2 : F} {u0 u1 : Com G1} {v0 v1 : Com G2}

theorem coupled_commit (hu : crs.u = [u0, u1]) (hv : crs.v = [v0, v1]) (ku : HidingKey crs.g1_gen a1 t1 u0 u1)
    (kv : HidingKey crs.g2_gen a2 t2 v0 v1) (w w' : Vars F G1 G2) (hl : w.SameLengths w') :
    Coupled (F := F) w.draws (fun s => w.commit crs s) (fun s => w'.commit crs s) (SameComs crs w w') := by
  have h1 := coupled_group (G := G1) ku (batch := fun xs rng => batchCommitG1 xs crs rng)
    (fun hm x R rest => batchCommitG1_draws hm x hu (draws_tape' (by rw [flatten_matOf_length]; omega) rest))
    w.X w'.X hl.X
  have h2 := coupled_scalar (G := G1) ku (batch := fun xs rng => batchCommitScalarToB1 xs crs rng)
    (fun hm x R rest => batchCommitB1_draws hm x hu (draws_tape' (by rw [flatten_matOf_length]; omega) rest))
    w.x w'.x hl.x
  have h3 := coupled_group (G := G2) kv (batch := fun xs rng => batchCommitG2 xs crs rng)
    (fun hm x R rest => batchCommitG2_draws hm x hv (draws_tape' (by rw [flatten_matOf_length]; omega) rest))
    w.Y w'.Y hl.Y
  have h4 := coupled_scalar (G := G2) kv (batch := fun xs rng => batchCommitScalarToB2 xs crs rng)
    (fun hm x R rest => batchCommitB2_draws hm x hv (draws_tape' (by rw [flatten_matOf_length]; omega) rest))
    w.y w'.y hl.y
  rw [← hu] at h1 h2
  rw [← hv] at h3 h4
  refine Coupled.congr (h1.bind fun cX cX' hX => h2.bind fun cx cx' hx => h3.bind fun cY cY' hY =>
    h4.map (f := fun cy => VarComs.mk cX cx cY cy) (f' := fun cy => VarComs.mk cX' cx' cY' cy)
      (Rel' := SameComs crs w w') fun cy cy' hy => ⟨hX.1, hx.1, hY.1, hy.1, hX.2.1, hx.2.1, hY.2.1, hy.2.1, hX.2.2,
        hx.2.2, hY.2.2, hy.2.2⟩) (by simp only [Vars.draws]; omega) rfl rfl fun _ _ h => h

/-! ### Proofs -/

/-- The published parts agree. -/
def SamePub (pf pf' : EquProof F G1 G2) : Prop := (pf.pi, pf.theta, pf.equ_type) = (pf'.pi, pf'.theta, pf'.equ_type)

theorem proveAll_coupled {E P P' : Type} {prove : E → List F → Res (P × List F)} {prove' : E → List F → Res (P' × List F)}
    {n : E → Nat} {Rel : P → P' → Prop} (qs : List E)
    (h : ∀ q ∈ qs, Coupled (n q) (prove q) (prove' q) Rel) :
    Coupled (qs.map n).sum (proveAll prove qs) (proveAll prove' qs) (List.Forall₂ Rel) := by
  induction qs with
  | nil => exact Coupled.pure .nil
  | cons q qs ih =>
    exact (h q (by simp)).bind fun pf pf' hp => (ih fun q hq => h q (by simp [hq])).map fun _ _ hps => .cons hp hps

/-! #### The prover on two witnesses -/

variable {e : G1 →ₗ[F] G2 →ₗ[F] GT} {xc xc' : Commit F G1} {yc yc' : Commit F G2}

theorem draws_mat {k l N : Nat} (hN : N = k * l) (T : Fin k → Fin l → F) (rest : List F) :
    draws (F := F) G1 G2 N ((matOf T).flatten ++ rest) = ((matOf T).flatten, rest) :=
  draws_tape' (by rw [flatten_matOf_length, hN]) rest

theorem PPE.prove_coupled (he : PrimeGroups e) (hu : crs.u = [u0, u1]) (hv : crs.v = [v0, v1])
    (ku : HidingKey crs.g1_gen a1 t1 u0 u1) (kv : HidingKey crs.g2_gen a2 t2 v0 v1) {self : PPE F G1 G2 GT} {x x' : List G1}
    {y y' : List G2} (hx : x ≠ []) (hy : y ≠ []) (hd : self.Dims x.length y.length) (hlx : x'.length = x.length)
    (hly : y'.length = y.length) (h : self.Holds e x y) (h' : self.Holds e x' y') (ex : xc.coms = xc'.coms)
    (ey : yc.coms = yc'.coms) (ox : xc.OpensGroup crs.u x) (oy : yc.OpensGroup crs.v y) (ox' : xc'.OpensGroup crs.u x')
    (oy' : yc'.OpensGroup crs.v y') (sch sch' : Nat → Scheduler) :
    Coupled (F := F) 4 (fun s => self.prove sch x y xc yc crs s) (fun s => self.prove sch' x' y' xc' yc' crs s) SamePub := by
  have hm := List.length_pos_iff.mpr hx
  have hn := List.length_pos_iff.mpr hy
  obtain ⟨m, hxm⟩ : ∃ m, x.length = m := ⟨_, rfl⟩
  obtain ⟨n, hyn⟩ : ∃ n, y.length = n := ⟨_, rfl⟩
  rw [hxm] at hm hd hlx
  rw [hyn] at hn hd hly
  obtain ⟨a, ha⟩ := exists_ofFn self.a_consts hd.a
  obtain ⟨b, hb⟩ := exists_ofFn self.b_consts hd.b
  obtain ⟨γ, hγ⟩ := rect_iff.mp (⟨hd.rows, hd.cols⟩ : Rect _ _ self.gamma)
  obtain ⟨x, rfl⟩ := exists_ofFn x hxm
  obtain ⟨y, rfl⟩ := exists_ofFn y hyn
  obtain ⟨x', rfl⟩ := exists_ofFn x' hlx
  obtain ⟨y', rfl⟩ := exists_ofFn y' hly
  rw [hu, opensGroup_ofFn] at ox ox'
  rw [hv, opensGroup_ofFn] at oy oy'
  obtain ⟨_, _, _, h1, R, hR, cx⟩ := ox
  cases h1
  obtain ⟨_, _, _, h1, R', hR', cx'⟩ := ox'
  cases h1
  obtain ⟨_, _, _, h1, S, hS, cy⟩ := oy
  cases h1
  obtain ⟨_, _, _, h1, S', hS', cy'⟩ := oy'
  cases h1
  rw [cx, cx'] at ex
  rw [cy, cy'] at ey
  obtain ⟨φ, hφ⟩ := exists_proofEquiv (ComT.pairL e) (u := ![u0, u1]) (v := ![v0, v1]) ku.indep2 kv.indep2 (ku.pair2 he)
    (a := (fun j => i1 (F := F) (a j))) (x := (fun i => i1 (F := F) (x i)))
    (x' := (fun i => i1 (F := F) (x' i))) (b := (fun i => i2 (F := F) (b i))) (y := (fun j => i2 (F := F) (y j)))
    (y' := (fun j => i2 (F := F) (y' j))) γ
    (fun _ => ku.span2 _) (fun _ => ku.span2 _) (fun _ => ku.span2 _) (fun _ => kv.span2 _) (fun _ => kv.span2 _)
    ((PPE.value (e := e) ha hb hγ h).trans (PPE.value (e := e) ha hb hγ h').symm)
    (List.ofFn_injective ex) (List.ofFn_injective ey)
  have hT : ∀ T : Fin 2 → Fin 2 → F, (matOf T).flatten = [T 0 0, T 0 1, T 1 0, T 1 1] := fun T => by simp [matOf, List.ofFn_succ]
  have hdr : ∀ (T : Fin 2 → Fin 2 → F) (rest : List F), _ := fun T rest =>
    draws_mat (G1 := G1) (G2 := G2) (N := 4) (by decide) T rest
  simp only [hT, draws, Prod.mk.injEq] at hdr
  simp only [← hT] at hdr
  refine Coupled.of_mat (k := 2) (l := 2) (by decide)
    (fun T rest => PPE.prove_closed hm hn ha hb hγ x y hR hS hu hv (by rw [(hdr T rest).1, hT]) (hdr T rest).2)
    (fun T rest => PPE.prove_closed hm hn ha hb hγ x' y' hR' hS' hu hv (by rw [(hdr T rest).1, hT]) (hdr T rest).2)
    ⟨φ, fun T => ?_⟩
  obtain ⟨h1, h2⟩ := hφ T
  exact Prod.ext (congrArg List.ofFn h1) (Prod.ext (congrArg List.ofFn h2) rfl)

theorem MSMEG1.prove_coupled (he : PrimeGroups e) (hu : crs.u = [u0, u1]) (hv : crs.v = [v0, v1])
    (ku : HidingKey crs.g1_gen a1 t1 u0 u1) (kv : HidingKey crs.g2_gen a2 t2 v0 v1) {self : MSMEG1 F G1} {x x' : List G1}
    {y y' : List F} (hx : x ≠ []) (hy : y ≠ []) (hd : self.Dims x.length y.length) (hlx : x'.length = x.length)
    (hly : y'.length = y.length) (h : self.Holds x y) (h' : self.Holds x' y') (ex : xc.coms = xc'.coms)
    (ey : yc.coms = yc'.coms) (ox : xc.OpensGroup crs.u x) (oy : yc.OpensScalar crs.v crs.g2_gen y) (ox' : xc'.OpensGroup crs.u x')
    (oy' : yc'.OpensScalar crs.v crs.g2_gen y') (sch sch' : Nat → Scheduler) :
    Coupled (F := F) 2 (fun s => self.prove sch x y xc yc crs s) (fun s => self.prove sch' x' y' xc' yc' crs s) SamePub := by
  have hm := List.length_pos_iff.mpr hx
  have hn := List.length_pos_iff.mpr hy
  obtain ⟨m, hxm⟩ : ∃ m, x.length = m := ⟨_, rfl⟩
  obtain ⟨n, hyn⟩ : ∃ n, y.length = n := ⟨_, rfl⟩
  rw [hxm] at hm hd hlx
  rw [hyn] at hn hd hly
  obtain ⟨a, ha⟩ := exists_ofFn self.a_consts hd.a
  obtain ⟨b, hb⟩ := exists_ofFn self.b_consts hd.b
  obtain ⟨γ, hγ⟩ := rect_iff.mp (⟨hd.rows, hd.cols⟩ : Rect _ _ self.gamma)
  obtain ⟨x, rfl⟩ := exists_ofFn x hxm
  obtain ⟨y, rfl⟩ := exists_ofFn y hyn
  obtain ⟨x', rfl⟩ := exists_ofFn x' hlx
  obtain ⟨y', rfl⟩ := exists_ofFn y' hly
  rw [hu, opensGroup_ofFn] at ox ox'
  rw [hv, opensScalar_ofFn] at oy oy'
  obtain ⟨_, _, _, h1, R, hR, cx⟩ := ox
  cases h1
  obtain ⟨_, _, _, h1, R', hR', cx'⟩ := ox'
  cases h1
  obtain ⟨_, _, _, h1, S, hS, cy⟩ := oy
  cases h1
  obtain ⟨_, _, _, h1, S', hS', cy'⟩ := oy'
  cases h1
  rw [cx, cx'] at ex
  rw [cy, cy'] at ey
  obtain ⟨φ, hφ⟩ := exists_proofEquiv (ComT.pairL e) (u := ![u0, u1]) (v := ![v0]) ku.indep2 kv.indep1 (ku.pair2 he)
    (a := (fun j => i1 (F := F) (a j))) (x := (fun i => i1 (F := F) (x i)))
    (x' := (fun i => i1 (F := F) (x' i))) (b := (fun i => b i • (v1 + (⟨0, crs.g2_gen⟩ : Com G2)))) (y := (fun j => y j • (v1 + (⟨0, crs.g2_gen⟩ : Com G2))))
    (y' := (fun j => y' j • (v1 + (⟨0, crs.g2_gen⟩ : Com G2)))) γ
    (fun _ => ku.span2 _) (fun _ => ku.span2 _) (fun _ => ku.span2 _) (fun _ => kv.span1 _) (fun _ => kv.span1 _)
    ((MSMEG1.value (e := e) ha hb hγ h _).trans (MSMEG1.value (e := e) ha hb hγ h' _).symm)
    (List.ofFn_injective ex) (List.ofFn_injective ey)
  have hT : ∀ T : Fin 1 → Fin 2 → F, (matOf T).flatten = [T 0 0, T 0 1] := fun T => by simp [matOf, List.ofFn_succ]
  have hdr : ∀ (T : Fin 1 → Fin 2 → F) (rest : List F), _ := fun T rest =>
    draws_mat (G1 := G1) (G2 := G2) (N := 2) (by decide) T rest
  simp only [hT, draws, Prod.mk.injEq] at hdr
  simp only [← hT] at hdr
  refine Coupled.of_mat (k := 1) (l := 2) (by decide)
    (fun T rest => MSMEG1.prove_closed hm hn ha hb hγ x y hR hS hu hv (by rw [(hdr T rest).1, hT]) (hdr T rest).2)
    (fun T rest => MSMEG1.prove_closed hm hn ha hb hγ x' y' hR' hS' hu hv (by rw [(hdr T rest).1, hT]) (hdr T rest).2)
    ⟨φ, fun T => ?_⟩
  obtain ⟨h1, h2⟩ := hφ T
  exact Prod.ext (congrArg List.ofFn h1) (Prod.ext (congrArg List.ofFn h2) rfl)

theorem MSMEG2.prove_coupled (he : PrimeGroups e) (hu : crs.u = [u0, u1]) (hv : crs.v = [v0, v1])
    (ku : HidingKey crs.g1_gen a1 t1 u0 u1) (kv : HidingKey crs.g2_gen a2 t2 v0 v1) {self : MSMEG2 F G2} {x x' : List F}
    {y y' : List G2} (hx : x ≠ []) (hy : y ≠ []) (hd : self.Dims x.length y.length) (hlx : x'.length = x.length)
    (hly : y'.length = y.length) (h : self.Holds x y) (h' : self.Holds x' y') (ex : xc.coms = xc'.coms)
    (ey : yc.coms = yc'.coms) (ox : xc.OpensScalar crs.u crs.g1_gen x) (oy : yc.OpensGroup crs.v y) (ox' : xc'.OpensScalar crs.u crs.g1_gen x')
    (oy' : yc'.OpensGroup crs.v y') (sch sch' : Nat → Scheduler) :
    Coupled (F := F) 2 (fun s => self.prove sch x y xc yc crs s) (fun s => self.prove sch' x' y' xc' yc' crs s) SamePub := by
  have hm := List.length_pos_iff.mpr hx
  have hn := List.length_pos_iff.mpr hy
  obtain ⟨m, hxm⟩ : ∃ m, x.length = m := ⟨_, rfl⟩
  obtain ⟨n, hyn⟩ : ∃ n, y.length = n := ⟨_, rfl⟩
  rw [hxm] at hm hd hlx
  rw [hyn] at hn hd hly
  obtain ⟨a, ha⟩ := exists_ofFn self.a_consts hd.a
  obtain ⟨b, hb⟩ := exists_ofFn self.b_consts hd.b
  obtain ⟨γ, hγ⟩ := rect_iff.mp (⟨hd.rows, hd.cols⟩ : Rect _ _ self.gamma)
  obtain ⟨x, rfl⟩ := exists_ofFn x hxm
  obtain ⟨y, rfl⟩ := exists_ofFn y hyn
  obtain ⟨x', rfl⟩ := exists_ofFn x' hlx
  obtain ⟨y', rfl⟩ := exists_ofFn y' hly
  rw [hu, opensScalar_ofFn] at ox ox'
  rw [hv, opensGroup_ofFn] at oy oy'
  obtain ⟨_, _, _, h1, R, hR, cx⟩ := ox
  cases h1
  obtain ⟨_, _, _, h1, R', hR', cx'⟩ := ox'
  cases h1
  obtain ⟨_, _, _, h1, S, hS, cy⟩ := oy
  cases h1
  obtain ⟨_, _, _, h1, S', hS', cy'⟩ := oy'
  cases h1
  rw [cx, cx'] at ex
  rw [cy, cy'] at ey
  obtain ⟨φ, hφ⟩ := exists_proofEquiv (ComT.pairL e) (u := ![u0]) (v := ![v0, v1]) ku.indep1 kv.indep2 (ku.pair1 he)
    (a := (fun j => a j • (u1 + (⟨0, crs.g1_gen⟩ : Com G1)))) (x := (fun i => x i • (u1 + (⟨0, crs.g1_gen⟩ : Com G1))))
    (x' := (fun i => x' i • (u1 + (⟨0, crs.g1_gen⟩ : Com G1)))) (b := (fun i => i2 (F := F) (b i))) (y := (fun j => i2 (F := F) (y j)))
    (y' := (fun j => i2 (F := F) (y' j))) γ
    (fun _ => ku.span1 _) (fun _ => ku.span1 _) (fun _ => ku.span1 _) (fun _ => kv.span2 _) (fun _ => kv.span2 _)
    ((MSMEG2.value (e := e) ha hb hγ h _).trans (MSMEG2.value (e := e) ha hb hγ h' _).symm)
    (List.ofFn_injective ex) (List.ofFn_injective ey)
  have hT : ∀ T : Fin 2 → Fin 1 → F, (matOf T).flatten = [T 0 0, T 1 0] := fun T => by simp [matOf, List.ofFn_succ]
  have hdr : ∀ (T : Fin 2 → Fin 1 → F) (rest : List F), _ := fun T rest =>
    draws_mat (G1 := G1) (G2 := G2) (N := 2) (by decide) T rest
  simp only [hT, draws, Prod.mk.injEq] at hdr
  simp only [← hT] at hdr
  refine Coupled.of_mat (k := 2) (l := 1) (by decide)
    (fun T rest => MSMEG2.prove_closed hm hn ha hb hγ x y hR hS hu hv (by rw [(hdr T rest).1, hT]) (hdr T rest).2)
    (fun T rest => MSMEG2.prove_closed hm hn ha hb hγ x' y' hR' hS' hu hv (by rw [(hdr T rest).1, hT]) (hdr T rest).2)
    ⟨φ, fun T => ?_⟩
  obtain ⟨h1, h2⟩ := hφ T
  exact Prod.ext (congrArg List.ofFn h1) (Prod.ext (congrArg List.ofFn h2) rfl)

theorem QuadEqu.prove_coupled (he : PrimeGroups e) (hu : crs.u = [u0, u1]) (hv : crs.v = [v0, v1])
    (ku : HidingKey crs.g1_gen a1 t1 u0 u1) (kv : HidingKey crs.g2_gen a2 t2 v0 v1) {self : QuadEqu F} {x x' : List F}
    {y y' : List F} (hx : x ≠ []) (hy : y ≠ []) (hd : self.Dims x.length y.length) (hlx : x'.length = x.length)
    (hly : y'.length = y.length) (h : self.Holds x y) (h' : self.Holds x' y') (ex : xc.coms = xc'.coms)
    (ey : yc.coms = yc'.coms) (ox : xc.OpensScalar crs.u crs.g1_gen x) (oy : yc.OpensScalar crs.v crs.g2_gen y) (ox' : xc'.OpensScalar crs.u crs.g1_gen x')
    (oy' : yc'.OpensScalar crs.v crs.g2_gen y') (sch sch' : Nat → Scheduler) :
    Coupled (F := F) 1 (fun s => self.prove sch x y xc yc crs s) (fun s => self.prove sch' x' y' xc' yc' crs s) SamePub := by
  have hm := List.length_pos_iff.mpr hx
  have hn := List.length_pos_iff.mpr hy
  obtain ⟨m, hxm⟩ : ∃ m, x.length = m := ⟨_, rfl⟩
  obtain ⟨n, hyn⟩ : ∃ n, y.length = n := ⟨_, rfl⟩
  rw [hxm] at hm hd hlx
  rw [hyn] at hn hd hly
  obtain ⟨a, ha⟩ := exists_ofFn self.a_consts hd.a
  obtain ⟨b, hb⟩ := exists_ofFn self.b_consts hd.b
  obtain ⟨γ, hγ⟩ := rect_iff.mp (⟨hd.rows, hd.cols⟩ : Rect _ _ self.gamma)
  obtain ⟨x, rfl⟩ := exists_ofFn x hxm
  obtain ⟨y, rfl⟩ := exists_ofFn y hyn
  obtain ⟨x', rfl⟩ := exists_ofFn x' hlx
  obtain ⟨y', rfl⟩ := exists_ofFn y' hly
  rw [hu, opensScalar_ofFn] at ox ox'
  rw [hv, opensScalar_ofFn] at oy oy'
  obtain ⟨_, _, _, h1, R, hR, cx⟩ := ox
  cases h1
  obtain ⟨_, _, _, h1, R', hR', cx'⟩ := ox'
  cases h1
  obtain ⟨_, _, _, h1, S, hS, cy⟩ := oy
  cases h1
  obtain ⟨_, _, _, h1, S', hS', cy'⟩ := oy'
  cases h1
  rw [cx, cx'] at ex
  rw [cy, cy'] at ey
  obtain ⟨φ, hφ⟩ := exists_proofEquiv (ComT.pairL e) (u := ![u0]) (v := ![v0]) ku.indep1 kv.indep1 (ku.pair1 he)
    (a := (fun j => a j • (u1 + (⟨0, crs.g1_gen⟩ : Com G1)))) (x := (fun i => x i • (u1 + (⟨0, crs.g1_gen⟩ : Com G1))))
    (x' := (fun i => x' i • (u1 + (⟨0, crs.g1_gen⟩ : Com G1)))) (b := (fun i => b i • (v1 + (⟨0, crs.g2_gen⟩ : Com G2)))) (y := (fun j => y j • (v1 + (⟨0, crs.g2_gen⟩ : Com G2))))
    (y' := (fun j => y' j • (v1 + (⟨0, crs.g2_gen⟩ : Com G2)))) γ
    (fun _ => ku.span1 _) (fun _ => ku.span1 _) (fun _ => ku.span1 _) (fun _ => kv.span1 _) (fun _ => kv.span1 _)
    ((QuadEqu.value (e := e) ha hb hγ h _ _).trans (QuadEqu.value (e := e) ha hb hγ h' _ _).symm)
    (List.ofFn_injective ex) (List.ofFn_injective ey)
  have hT : ∀ T : Fin 1 → Fin 1 → F, (matOf T).flatten = [T 0 0] := fun T => by simp [matOf, List.ofFn_succ]
  have hdr : ∀ (T : Fin 1 → Fin 1 → F) (rest : List F), _ := fun T rest =>
    draws_mat (G1 := G1) (G2 := G2) (N := 1) (by decide) T rest
  simp only [hT, draws, Prod.mk.injEq] at hdr
  simp only [← hT] at hdr
  refine Coupled.of_mat (k := 1) (l := 1) (by decide)
    (fun T rest => QuadEqu.prove_closed hm hn ha hb hγ x y hR hS hu hv (by rw [(hdr T rest).1, hT]) (hdr T rest).2)
    (fun T rest => QuadEqu.prove_closed hm hn ha hb hγ x' y' hR' hS' hu hv (by rw [(hdr T rest).1, hT]) (hdr T rest).2)
    ⟨φ, fun T => ?_⟩
  obtain ⟨h1, h2⟩ := hφ T
  exact Prod.ext (congrArg List.ofFn h1) (Prod.ext (congrArg List.ofFn h2) rfl)

/-! #### The prover and the simulator -/

theorem opensGroup_zeros {u0 u1 : Com G} {c : Commit F G} {m : Nat} (h : c.OpensGroup [u0, u1] (List.replicate m 0)) :
    ∃ R : Fin m → Fin 2 → F, c.rand = matOf R ∧ c.coms = List.ofFn fun i => ∑ k, R i k • ![u0, u1] k := by
  rw [replicate_ofFn, opensGroup_ofFn] at h
  obtain ⟨_, _, _, h1, R, hR, hc⟩ := h
  cases h1
  refine ⟨R, hR, hc.trans (List.ofFn_inj.mpr (funext fun i => ?_))⟩
  exact zero_add _

theorem opensScalar_zeros {u0 u1 : Com G} {g : G} {c : Commit F G} {m : Nat}
    (h : c.OpensScalar [u0, u1] g (List.replicate m 0)) :
    ∃ R : Fin m → Fin 1 → F, c.rand = matOf R ∧ c.coms = List.ofFn fun i => R i 0 • u0 := by
  rw [replicate_ofFn, opensScalar_ofFn] at h
  obtain ⟨_, _, _, h1, R, hR, hc⟩ := h
  cases h1
  refine ⟨R, hR, hc.trans (List.ofFn_inj.mpr (funext fun i => ?_))⟩
  simp

theorem MSMEG1.simulate_coupled (he : PrimeGroups e) (hu : crs.u = [u0, u1]) (hv : crs.v = [v0, v1])
    (ku : HidingKey crs.g1_gen a1 t1 u0 u1) (kv : HidingKey crs.g2_gen a2 t2 v0 v1) {self : MSMEG1 F G1} {x : List G1}
    {y : List F} (hx : x ≠ []) (hy : y ≠ []) (hd : self.Dims x.length y.length) (h : self.Holds x y)
    (ex : xc.coms = xc'.coms) (ey : yc.coms = yc'.coms) (ox : xc.OpensGroup crs.u x) (oy : yc.OpensScalar crs.v crs.g2_gen y)
    (ox' : xc'.OpensGroup crs.u (List.replicate x.length 0)) (oy' : yc'.OpensScalar crs.v crs.g2_gen (List.replicate y.length 0))
    (sch : Nat → Scheduler) :
    Coupled (F := F) 2 (fun s => self.prove sch x y xc yc crs s) (fun s => self.simulateProof t2 xc' yc' crs s) SamePub := by
  have hm := List.length_pos_iff.mpr hx
  have hn := List.length_pos_iff.mpr hy
  obtain ⟨m, hxm⟩ : ∃ m, x.length = m := ⟨_, rfl⟩
  obtain ⟨n, hyn⟩ : ∃ n, y.length = n := ⟨_, rfl⟩
  rw [hxm] at hm hd ox'
  rw [hyn] at hn hd oy'
  obtain ⟨a, ha⟩ := exists_ofFn self.a_consts hd.a
  obtain ⟨b, hb⟩ := exists_ofFn self.b_consts hd.b
  obtain ⟨γ, hγ⟩ := rect_iff.mp (⟨hd.rows, hd.cols⟩ : Rect _ _ self.gamma)
  obtain ⟨x, rfl⟩ := exists_ofFn x hxm
  obtain ⟨y, rfl⟩ := exists_ofFn y hyn
  rw [hu, opensGroup_ofFn] at ox
  rw [hv, opensScalar_ofFn] at oy
  obtain ⟨_, _, _, h1, R, hR, cx⟩ := ox
  cases h1
  obtain ⟨_, _, _, h1, S, hS, cy⟩ := oy
  cases h1
  rw [hu] at ox'
  rw [hv] at oy'
  obtain ⟨R', hR', cx'⟩ := opensGroup_zeros ox'
  obtain ⟨S', hS', cy'⟩ := opensScalar_zeros oy'
  rw [cx, cx'] at ex
  rw [cy, cy'] at ey
  have hB : (fun i => b i • (v1 + (⟨0, crs.g2_gen⟩ : Com G2))) = fun i => (b i * t2) • v0 := by
    funext i; rw [kv.lift, smul_smul]
  have hval := MSMEG1.value (e := e) ha hb hγ h (v1 + (⟨0, crs.g2_gen⟩ : Com G2))
  have htar : tMSMEG1 e (v1 + (⟨0, crs.g2_gen⟩ : Com G2)) self.target = ComT.pairL e (t2 • i1 (F := F) self.target) v0 := by
    rw [kv.lift, map_smul, LinearMap.smul_apply, ← map_smul]; rfl
  rw [htar] at hval
  simp only [fun i => congrFun hB i] at hval
  obtain ⟨φ, hφ⟩ := exists_simEquiv1 (ComT.pairL e) (u := ![u0, u1]) (v0 := v0) ku.indep2 kv.indep1 (ku.pair2 he)
    (a := fun j => i1 (F := F) (a j)) (x := fun i => i1 (F := F) (x i)) (β := fun i => b i * t2)
    (τ := t2 • i1 (F := F) self.target) (y := fun j => y j • (v1 + (⟨0, crs.g2_gen⟩ : Com G2))) γ
    (fun _ => ku.span2 _) (fun _ => ku.span2 _) (fun _ => kv.span1 _) (ku.span2 _) hval
    (List.ofFn_injective ex) (List.ofFn_injective ey)
  have hT : ∀ T : Fin 1 → Fin 2 → F, (matOf T).flatten = [T 0 0, T 0 1] := fun T => by simp [matOf, List.ofFn_succ]
  have hdr : ∀ (T : Fin 1 → Fin 2 → F) (rest : List F), _ := fun T rest =>
    draws_mat (G1 := G1) (G2 := G2) (N := 2) (by decide) T rest
  have hdr' := hdr
  simp only [hT, draws, Prod.mk.injEq] at hdr
  simp only [← hT] at hdr
  refine Coupled.of_mat (k := 1) (l := 2) (by decide)
    (fun T rest => MSMEG1.prove_closed hm hn ha hb hγ x y hR hS hu hv (by rw [(hdr T rest).1, hT]) (hdr T rest).2)
    (fun T rest => MSMEG1.simulateProof_draws ha hb hγ t2 hu hv cx' hS' (hdr' T rest))
    ⟨φ, fun T => ?_⟩
  obtain ⟨h1, h2⟩ := hφ T
  rw [← hB] at h1
  exact Prod.ext (congrArg List.ofFn h1) (Prod.ext (congrArg List.ofFn h2) rfl)

theorem MSMEG2.simulate_coupled (he : PrimeGroups e) (hu : crs.u = [u0, u1]) (hv : crs.v = [v0, v1])
    (ku : HidingKey crs.g1_gen a1 t1 u0 u1) (kv : HidingKey crs.g2_gen a2 t2 v0 v1) {self : MSMEG2 F G2} {x : List F}
    {y : List G2} (hx : x ≠ []) (hy : y ≠ []) (hd : self.Dims x.length y.length) (h : self.Holds x y)
    (ex : xc.coms = xc'.coms) (ey : yc.coms = yc'.coms) (ox : xc.OpensScalar crs.u crs.g1_gen x) (oy : yc.OpensGroup crs.v y)
    (ox' : xc'.OpensScalar crs.u crs.g1_gen (List.replicate x.length 0)) (oy' : yc'.OpensGroup crs.v (List.replicate y.length 0))
    (sch : Nat → Scheduler) :
    Coupled (F := F) 2 (fun s => self.prove sch x y xc yc crs s) (fun s => self.simulateProof t1 xc' yc' crs s) SamePub := by
  have hm := List.length_pos_iff.mpr hx
  have hn := List.length_pos_iff.mpr hy
  obtain ⟨m, hxm⟩ : ∃ m, x.length = m := ⟨_, rfl⟩
  obtain ⟨n, hyn⟩ : ∃ n, y.length = n := ⟨_, rfl⟩
  rw [hxm] at hm hd ox'
  rw [hyn] at hn hd oy'
  obtain ⟨a, ha⟩ := exists_ofFn self.a_consts hd.a
  obtain ⟨b, hb⟩ := exists_ofFn self.b_consts hd.b
  obtain ⟨γ, hγ⟩ := rect_iff.mp (⟨hd.rows, hd.cols⟩ : Rect _ _ self.gamma)
  obtain ⟨x, rfl⟩ := exists_ofFn x hxm
  obtain ⟨y, rfl⟩ := exists_ofFn y hyn
  rw [hu, opensScalar_ofFn] at ox
  rw [hv, opensGroup_ofFn] at oy
  obtain ⟨_, _, _, h1, R, hR, cx⟩ := ox
  cases h1
  obtain ⟨_, _, _, h1, S, hS, cy⟩ := oy
  cases h1
  rw [hu] at ox'
  rw [hv] at oy'
  obtain ⟨R', hR', cx'⟩ := opensScalar_zeros ox'
  obtain ⟨S', hS', cy'⟩ := opensGroup_zeros oy'
  rw [cx, cx'] at ex
  rw [cy, cy'] at ey
  have hA : (fun j => a j • (u1 + (⟨0, crs.g1_gen⟩ : Com G1))) = fun j => (a j * t1) • u0 := by
    funext i; rw [ku.lift, smul_smul]
  have hval := MSMEG2.value (e := e) ha hb hγ h (u1 + (⟨0, crs.g1_gen⟩ : Com G1))
  have htar : tMSMEG2 e (u1 + (⟨0, crs.g1_gen⟩ : Com G1)) self.target = ComT.pairL e u0 (t1 • i2 (F := F) self.target) := by
    rw [ku.lift, map_smul, ← LinearMap.smul_apply, ← map_smul]; rfl
  rw [htar] at hval
  simp only [fun i => congrFun hA i] at hval
  obtain ⟨φ, hφ⟩ := exists_simEquiv2 (ComT.pairL e) (u0 := u0) (v := ![v0, v1]) ku.indep1 kv.indep2 (ku.pair1 he)
    (α := fun j => a j * t1) (x := fun i => x i • (u1 + (⟨0, crs.g1_gen⟩ : Com G1))) (b := fun i => i2 (F := F) (b i))
    (τ := t1 • i2 (F := F) self.target) (y := fun j => i2 (F := F) (y j)) γ
    (fun _ => ku.span1 _) (fun _ => kv.span2 _) hval
    (List.ofFn_injective ex) (List.ofFn_injective ey)
  have hT : ∀ T : Fin 2 → Fin 1 → F, (matOf T).flatten = [T 0 0, T 1 0] := fun T => by simp [matOf, List.ofFn_succ]
  have hdr : ∀ (T : Fin 2 → Fin 1 → F) (rest : List F), _ := fun T rest =>
    draws_mat (G1 := G1) (G2 := G2) (N := 2) (by decide) T rest
  have hdr' := hdr
  simp only [hT, draws, Prod.mk.injEq] at hdr
  simp only [← hT] at hdr
  refine Coupled.of_mat (k := 2) (l := 1) (by decide)
    (fun T rest => MSMEG2.prove_closed hm hn ha hb hγ x y hR hS hu hv (by rw [(hdr T rest).1, hT]) (hdr T rest).2)
    (fun T rest => MSMEG2.simulateProof_draws ha hb hγ t1 hu hv hR' cy' (hdr' T rest))
    ⟨φ, fun T => ?_⟩
  obtain ⟨h1, h2⟩ := hφ T
  rw [← hA] at h2
  exact Prod.ext (congrArg List.ofFn h1) (Prod.ext (congrArg List.ofFn h2) rfl)

theorem QuadEqu.simulate_coupled (he : PrimeGroups e) (hu : crs.u = [u0, u1]) (hv : crs.v = [v0, v1])
    (ku : HidingKey crs.g1_gen a1 t1 u0 u1) (kv : HidingKey crs.g2_gen a2 t2 v0 v1) {self : QuadEqu F} {x : List F}
    {y : List F} (hx : x ≠ []) (hy : y ≠ []) (hd : self.Dims x.length y.length) (h : self.Holds x y)
    (ex : xc.coms = xc'.coms) (ey : yc.coms = yc'.coms) (ox : xc.OpensScalar crs.u crs.g1_gen x) (oy : yc.OpensScalar crs.v crs.g2_gen y)
    (ox' : xc'.OpensScalar crs.u crs.g1_gen (List.replicate x.length 0)) (oy' : yc'.OpensScalar crs.v crs.g2_gen (List.replicate y.length 0))
    (sch : Nat → Scheduler) :
    Coupled (F := F) 1 (fun s => self.prove sch x y xc yc crs s) (fun s => self.simulateProof t1 t2 xc' yc' crs s) SamePub := by
  have hm := List.length_pos_iff.mpr hx
  have hn := List.length_pos_iff.mpr hy
  obtain ⟨m, hxm⟩ : ∃ m, x.length = m := ⟨_, rfl⟩
  obtain ⟨n, hyn⟩ : ∃ n, y.length = n := ⟨_, rfl⟩
  rw [hxm] at hm hd ox'
  rw [hyn] at hn hd oy'
  obtain ⟨a, ha⟩ := exists_ofFn self.a_consts hd.a
  obtain ⟨b, hb⟩ := exists_ofFn self.b_consts hd.b
  obtain ⟨γ, hγ⟩ := rect_iff.mp (⟨hd.rows, hd.cols⟩ : Rect _ _ self.gamma)
  obtain ⟨x, rfl⟩ := exists_ofFn x hxm
  obtain ⟨y, rfl⟩ := exists_ofFn y hyn
  rw [hu, opensScalar_ofFn] at ox
  rw [hv, opensScalar_ofFn] at oy
  obtain ⟨_, _, _, h1, R, hR, cx⟩ := ox
  cases h1
  obtain ⟨_, _, _, h1, S, hS, cy⟩ := oy
  cases h1
  rw [hu] at ox'
  rw [hv] at oy'
  obtain ⟨R', hR', cx'⟩ := opensScalar_zeros ox'
  obtain ⟨S', hS', cy'⟩ := opensScalar_zeros oy'
  simp only [show ∀ i, R' i 0 • u0 = ∑ k, R' i k • ![u0] k from fun i => by simp] at cx'
  rw [cx, cx'] at ex
  rw [cy, cy'] at ey
  have hA : (fun j => a j • (u1 + (⟨0, crs.g1_gen⟩ : Com G1))) = fun j => a j • t1 • u0 := by
    funext i; rw [ku.lift]
  have hB : (fun i => b i • (v1 + (⟨0, crs.g2_gen⟩ : Com G2))) = fun i => (b i * t2) • v0 := by
    funext i; rw [kv.lift, smul_smul]
  have hval := QuadEqu.value (e := e) ha hb hγ h (u1 + (⟨0, crs.g1_gen⟩ : Com G1)) (v1 + (⟨0, crs.g2_gen⟩ : Com G2))
  have htar : tQuad e (u1 + (⟨0, crs.g1_gen⟩ : Com G1)) (v1 + (⟨0, crs.g2_gen⟩ : Com G2)) self.target =
      ComT.pairL e (t2 • self.target • t1 • u0) v0 := by
    rw [kv.lift, ku.lift, tQuad, LinearMap.toSpanSingleton_apply]
    simp only [map_smul, LinearMap.smul_apply]
    module
  rw [htar] at hval
  simp only [fun i => congrFun hB i, fun i => congrFun hA i] at hval
  have hsp : ∀ r : F, r • t1 • u0 ∈ Submodule.span F (Set.range ![u0]) := fun r => by
    rw [smul_smul]; exact mem_span1 _ _
  obtain ⟨φ, hφ⟩ := exists_simEquiv1 (ComT.pairL e) (u := ![u0]) (v0 := v0) ku.indep1 kv.indep1 (ku.pair1 he)
    (a := fun j => a j • t1 • u0) (x := fun i => x i • (u1 + (⟨0, crs.g1_gen⟩ : Com G1))) (β := fun i => b i * t2)
    (τ := t2 • self.target • t1 • u0) (y := fun j => y j • (v1 + (⟨0, crs.g2_gen⟩ : Com G2))) γ
    (fun _ => hsp _) (fun _ => ku.span1 _) (fun _ => kv.span1 _) (Submodule.smul_mem _ _ (hsp _)) hval
    (List.ofFn_injective ex) (List.ofFn_injective (ey.trans rfl))
  have hT : ∀ T : Fin 1 → Fin 1 → F, (matOf T).flatten = [T 0 0] := fun T => by simp [matOf, List.ofFn_succ]
  have hdr : ∀ (T : Fin 1 → Fin 1 → F) (rest : List F), _ := fun T rest =>
    draws_mat (G1 := G1) (G2 := G2) (N := 1) (by decide) T rest
  have hdr' := hdr
  simp only [hT, draws, Prod.mk.injEq] at hdr
  simp only [← hT] at hdr
  refine Coupled.of_mat (k := 1) (l := 1) (by decide)
    (fun T rest => QuadEqu.prove_closed hm hn ha hb hγ x y hR hS hu hv (by rw [(hdr T rest).1, hT]) (hdr T rest).2)
    (fun T rest => QuadEqu.simulateProof_draws ha hb hγ t1 t2 hu hv cx' hS' (hdr' T rest))
    ⟨φ, fun T => ?_⟩
  obtain ⟨h1, h2⟩ := hφ T
  rw [← hB] at h1
  rw [← hA] at h2
  refine Prod.ext (congrArg List.ofFn h1) (Prod.ext (congrArg List.ofFn h2) rfl)

/-! #### Statements -/

theorem PPE.holds_zeros {self : PPE F G1 G2 GT} {m n : Nat} (hd : self.Dims m n) (h0 : self.target = 0) :
    self.Holds e (List.replicate m 0) (List.replicate n 0) := by
  obtain ⟨a, ha⟩ := exists_ofFn self.a_consts hd.a
  obtain ⟨b, hb⟩ := exists_ofFn self.b_consts hd.b
  obtain ⟨γ, hγ⟩ := rect_iff.mp (⟨hd.rows, hd.cols⟩ : Rect _ _ self.gamma)
  rw [PPE.Holds, ha, hb, hγ, h0, replicate_ofFn, replicate_ofFn, equLhs_ofFn]
  simp

theorem AnyEqu.prove_coupled (he : PrimeGroups e) (hu : crs.u = [u0, u1]) (hv : crs.v = [v0, v1])
    (ku : HidingKey crs.g1_gen a1 t1 u0 u1) (kv : HidingKey crs.g2_gen a2 t2 v0 v1) {q : AnyEqu F G1 G2 GT}
    {w w' : Vars F G1 G2} (hl : w.SameLengths w') (hf : q.Fits w) (h : q.Holds e w) (h' : q.Holds e w')
    {c c' : VarComs F G1 G2} (hc : SameComs crs w w' c c') (sch sch' : Nat → Scheduler) :
    Coupled (F := F) q.draws (fun s => q.prove sch w c crs s) (fun s => q.prove sch' w' c' crs s) SamePub := by
  cases q with
  | ppe q =>
    exact PPE.prove_coupled he hu hv ku kv hf.1 hf.2.1 hf.2.2 hl.X hl.Y h h' hc.eX hc.eY hc.oX hc.oY hc.oX'
      hc.oY' sch sch'
  | msmeg1 q =>
    exact MSMEG1.prove_coupled he hu hv ku kv hf.1 hf.2.1 hf.2.2 hl.X hl.y h h' hc.eX hc.ey hc.oX hc.oy
      hc.oX' hc.oy' sch sch'
  | msmeg2 q =>
    exact MSMEG2.prove_coupled he hu hv ku kv hf.1 hf.2.1 hf.2.2 hl.x hl.Y h h' hc.ex hc.eY hc.ox hc.oY
      hc.ox' hc.oY' sch sch'
  | quad q =>
    exact QuadEqu.prove_coupled he hu hv ku kv hf.1 hf.2.1 hf.2.2 hl.x hl.y h h' hc.ex hc.ey hc.ox hc.oy
      hc.ox' hc.oy' sch sch'

theorem AnyEqu.simulate_coupled (he : PrimeGroups e) (hu : crs.u = [u0, u1]) (hv : crs.v = [v0, v1])
    (ku : HidingKey crs.g1_gen a1 t1 u0 u1) (kv : HidingKey crs.g2_gen a2 t2 v0 v1) {q : AnyEqu F G1 G2 GT}
    {w : Vars F G1 G2} (hf : q.Fits w) (h : q.Holds e w) (hs : q.Simulatable)
    {c c' : VarComs F G1 G2} (hc : SameComs crs w w.zeros c c') (sch sch' : Nat → Scheduler) :
    Coupled (F := F) q.draws (fun s => q.prove sch w c crs s) (fun s => q.simulate sch' t1 t2 w.zeros c' crs s)
      SamePub := by
  cases q with
  | ppe q =>
    exact PPE.prove_coupled he hu hv ku kv hf.1 hf.2.1 hf.2.2 List.length_replicate List.length_replicate h
      (PPE.holds_zeros hf.2.2 hs) hc.eX hc.eY hc.oX hc.oY hc.oX' hc.oY' sch sch'
  | msmeg1 q =>
    exact MSMEG1.simulate_coupled he hu hv ku kv hf.1 hf.2.1 hf.2.2 h hc.eX hc.ey hc.oX hc.oy
      hc.oX' hc.oy' sch
  | msmeg2 q =>
    exact MSMEG2.simulate_coupled he hu hv ku kv hf.1 hf.2.1 hf.2.2 h hc.ex hc.eY hc.ox hc.oY
      hc.ox' hc.oY' sch
  | quad q =>
    exact QuadEqu.simulate_coupled he hu hv ku kv hf.1 hf.2.1 hf.2.2 h hc.ex hc.ey hc.ox hc.oy
      hc.ox' hc.oy' sch

theorem jointView_eq {w w' : Vars F G1 G2} {c c' : VarComs F G1 G2} (hc : SameComs crs w w' c c')
    {l l' : List (EquProof F G1 G2)} (h : List.Forall₂ SamePub l l') : jointView (c, l) = jointView (c', l') := by
  have : l.map (fun pf => (pf.pi, pf.theta, pf.equ_type)) = l'.map fun pf => (pf.pi, pf.theta, pf.equ_type) := by
    induction h with
    | nil => rfl
    | cons h _ ih => rw [List.map_cons, List.map_cons, ih, h]
  simp only [jointView, hc.eX, hc.ex, hc.eY, hc.ey, this]

theorem zipIdx_draws (qs : List (AnyEqu F G1 G2 GT)) (k : Nat) :
    ((qs.zipIdx k).map fun q => q.1.draws) = qs.map AnyEqu.draws := by
  induction qs generalizing k with
  | nil => rfl
  | cons q qs ih => simp [List.zipIdx_cons, ih]

theorem proveStatement_coupled (he : PrimeGroups e) (hu : crs.u = [u0, u1]) (hv : crs.v = [v0, v1])
    (ku : HidingKey crs.g1_gen a1 t1 u0 u1) (kv : HidingKey crs.g2_gen a2 t2 v0 v1) {qs : List (AnyEqu F G1 G2 GT)}
    {w w' : Vars F G1 G2} (hl : w.SameLengths w') (hf : ∀ q ∈ qs, q.Fits w) (h : ∀ q ∈ qs, q.Holds e w)
    (h' : ∀ q ∈ qs, q.Holds e w') (sch sch' : Nat → Nat → Scheduler) :
    Coupled (F := F) (w.draws + (qs.map AnyEqu.draws).sum) (fun s => proveStatement sch qs w crs s)
      (fun s => proveStatement sch' qs w' crs s) fun r r' => jointView r = jointView r' := by
  refine Coupled.congr ((coupled_commit hu hv ku kv w w' hl).bind fun c c' hc =>
    (proveAll_coupled (n := fun q => q.1.draws) (Rel := SamePub) qs.zipIdx fun q hq =>
      AnyEqu.prove_coupled he hu hv ku kv hl (hf _ (List.fst_mem_of_mem_zipIdx hq)) (h _ (List.fst_mem_of_mem_zipIdx hq))
        (h' _ (List.fst_mem_of_mem_zipIdx hq)) hc (sch q.2) (sch' q.2)).map (f := fun l => (c, l)) (f' := fun l => (c', l))
      (Rel' := fun r r' => jointView r = jointView r') fun l l' hll => jointView_eq hc hll) ?_ rfl rfl fun _ _ h => h
  rw [zipIdx_draws]

theorem simulateStatement_coupled (he : PrimeGroups e) (hu : crs.u = [u0, u1]) (hv : crs.v = [v0, v1])
    (ku : HidingKey crs.g1_gen a1 t1 u0 u1) (kv : HidingKey crs.g2_gen a2 t2 v0 v1) {qs : List (AnyEqu F G1 G2 GT)}
    {w : Vars F G1 G2} (hf : ∀ q ∈ qs, q.Fits w) (h : ∀ q ∈ qs, q.Holds e w)
    (hs : ∀ q ∈ qs, q.Simulatable) (sch sch' : Nat → Nat → Scheduler) :
    Coupled (F := F) (w.draws + (qs.map AnyEqu.draws).sum) (fun s => proveStatement sch qs w crs s)
      (fun s => simulateStatement sch' qs t1 t2 w crs s) fun r r' => jointView r = jointView r' := by
  refine Coupled.congr ((coupled_commit hu hv ku kv w w.zeros ⟨by simp [Vars.zeros], by simp [Vars.zeros],
      by simp [Vars.zeros], by simp [Vars.zeros]⟩).bind fun c c' hc =>
    (proveAll_coupled (n := fun q => q.1.draws) (Rel := SamePub) qs.zipIdx fun q hq =>
      AnyEqu.simulate_coupled he hu hv ku kv (hf _ (List.fst_mem_of_mem_zipIdx hq)) (h _ (List.fst_mem_of_mem_zipIdx hq))
        (hs _ (List.fst_mem_of_mem_zipIdx hq)) hc (sch q.2) (sch' q.2)).map (f := fun l => (c, l)) (f' := fun l => (c', l))
      (Rel' := fun r r' => jointView r = jointView r') fun l l' hll => jointView_eq hc hll) ?_ rfl rfl fun _ _ h => h
  rw [zipIdx_draws]

end statements
end GS
