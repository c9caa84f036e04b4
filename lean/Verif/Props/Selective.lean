import Verif.Props.Joint
import Verif.Spec.Selective

/-!
# C102: selective disclosure

Opening the commitments of some variables reveals nothing about the others, beyond what the equations and the opened values
say: any two solutions that agree on the opened variables give the same views.
-/

set_option linter.unusedSectionVars false

open scoped BigOperators

namespace GS
variable {F G G1 G2 GT : Type} [Field F] [AddCommGroup G] [Module F G] [AddCommGroup G1] [Module F G1] [AddCommGroup G2]
  [Module F G2] [AddCommGroup GT] [Module F GT] {e : G1 →ₗ[F] G2 →ₗ[F] GT}

namespace Selective

section rows
variable {g : G} {a t : F} {u0 u1 : Com G}

theorem groupCom_inj (k : HidingKey g a t u0 u1) {x : G} {r r' : F × F}
    (h : groupCom u0 u1 x r = groupCom u0 u1 x r') : r = r' := by
  have h' : r.1 • u0 + r.2 • u1 = r'.1 • u0 + r'.2 • u1 := by
    simp only [groupCom, add_assoc] at h
    exact add_left_cancel h
  have := k.indep2.inj (r := ![r.1, r.2]) (r' := ![r'.1, r'.2]) (by simpa [Fin.sum_univ_two] using h')
  have h0 := congrFun this 0
  have h1 := congrFun this 1
  exact Prod.ext h0 h1

theorem scalarCom_inj (k : HidingKey g a t u0 u1) {x r r' : F}
    (h : scalarCom u0 u1 g x r = scalarCom u0 u1 g x r') : r = r' := by
  have h' : r • u0 = r' • u0 := by
    simp only [scalarCom] at h
    exact add_left_cancel h
  have := k.indep1.inj (r := ![r]) (r' := ![r']) (by simpa using h')
  exact congrFun this 0

theorem rows_group (k : HidingKey g a t u0 u1) {c c' : Commit F G} {xs xs' : List G} (hc : c.coms = c'.coms)
    (h : c.OpensGroup [u0, u1] xs) (h' : c'.OpensGroup [u0, u1] xs') {i : Nat} (hi : xs[i]? = xs'[i]?) :
    c.rand[i]? = c'.rand[i]? := by
  obtain ⟨_, _, _, h1, R, hR, hr, hcm⟩ := h
  cases h1
  obtain ⟨_, _, _, h1, R', hR', hr', hcm'⟩ := h'
  cases h1
  have key : R[i]? = R'[i]? := by
    have h2 := congrArg (fun l => l[i]?) (hcm.symm.trans (hc.trans hcm'))
    simp only [List.getElem?_zipWith, ← hi] at h2
    cases hx : xs[i]? with
    | none =>
      have hx' := hi ▸ hx
      rw [List.getElem?_eq_none_iff] at hx hx'
      rw [List.getElem?_eq_none_iff.mpr (by omega), List.getElem?_eq_none_iff.mpr (by omega)]
    | some x =>
      have hx' := hi ▸ hx
      obtain ⟨l1, -⟩ := List.getElem?_eq_some_iff.mp hx
      obtain ⟨l2, -⟩ := List.getElem?_eq_some_iff.mp hx'
      have q1 : R[i]? = some R[i] := List.getElem?_eq_getElem (by omega)
      have q2 : R'[i]? = some R'[i] := List.getElem?_eq_getElem (by omega)
      simp only [hx, q1, q2, Option.some.injEq] at h2
      rw [q1, q2, groupCom_inj k h2]
  rw [hr, hr', List.getElem?_map, List.getElem?_map, key]

theorem rows_scalar (k : HidingKey g a t u0 u1) {c c' : Commit F G} {xs xs' : List F} (hc : c.coms = c'.coms)
    (h : c.OpensScalar [u0, u1] g xs) (h' : c'.OpensScalar [u0, u1] g xs') {i : Nat} (hi : xs[i]? = xs'[i]?) :
    c.rand[i]? = c'.rand[i]? := by
  obtain ⟨_, _, _, h1, R, hR, hr, hcm⟩ := h
  cases h1
  obtain ⟨_, _, _, h1, R', hR', hr', hcm'⟩ := h'
  cases h1
  have key : R[i]? = R'[i]? := by
    have h2 := congrArg (fun l => l[i]?) (hcm.symm.trans (hc.trans hcm'))
    simp only [List.getElem?_zipWith, ← hi] at h2
    cases hx : xs[i]? with
    | none =>
      have hx' := hi ▸ hx
      rw [List.getElem?_eq_none_iff] at hx hx'
      rw [List.getElem?_eq_none_iff.mpr (by omega), List.getElem?_eq_none_iff.mpr (by omega)]
    | some x =>
      have hx' := hi ▸ hx
      obtain ⟨l1, -⟩ := List.getElem?_eq_some_iff.mp hx
      obtain ⟨l2, -⟩ := List.getElem?_eq_some_iff.mp hx'
      have q1 : R[i]? = some R[i] := List.getElem?_eq_getElem (by omega)
      have q2 : R'[i]? = some R'[i] := List.getElem?_eq_getElem (by omega)
      simp only [hx, q1, q2, Option.some.injEq] at h2
      rw [q1, q2, scalarCom_inj k h2]
  rw [hr, hr', List.getElem?_map, List.getElem?_map, key]

theorem check_group {c : Commit F G} {xs : List G} (h : c.OpensGroup [u0, u1] xs) {i : Nat} {x : G} (hi : xs[i]? = some x) :
    ∃ r s, c.rand[i]? = some [r, s] ∧ c.coms[i]? = some (groupCom u0 u1 x (r, s)) := by
  obtain ⟨_, _, _, h1, R, hR, hr, hcm⟩ := h
  cases h1
  obtain ⟨l1, -⟩ := List.getElem?_eq_some_iff.mp hi
  have q1 : R[i]? = some R[i] := List.getElem?_eq_getElem (by omega)
  exact ⟨R[i].1, R[i].2, by rw [hr, List.getElem?_map, q1]; rfl, by rw [hcm, List.getElem?_zipWith, hi, q1]⟩

theorem check_scalar {c : Commit F G} {xs : List F} (h : c.OpensScalar [u0, u1] g xs) {i : Nat} {x : F}
    (hi : xs[i]? = some x) : ∃ r, c.rand[i]? = some [r] ∧ c.coms[i]? = some (scalarCom u0 u1 g x r) := by
  obtain ⟨_, _, _, h1, R, hR, hr, hcm⟩ := h
  cases h1
  obtain ⟨l1, -⟩ := List.getElem?_eq_some_iff.mp hi
  have q1 : R[i]? = some R[i] := List.getElem?_eq_getElem (by omega)
  exact ⟨R[i], by rw [hr, List.getElem?_map, q1]; rfl, by rw [hcm, List.getElem?_zipWith, hi, q1]⟩

end rows

section statements
variable {crs : CRS G1 G2 GT} {a1 a2 t1 t2 : F} {u0 u1 : Com G1} {v0 v1 : Com G2}

theorem openPicks_eq (hu : crs.u = [u0, u1]) (hv : crs.v = [v0, v1]) (ku : HidingKey crs.g1_gen a1 t1 u0 u1)
    (kv : HidingKey crs.g2_gen a2 t2 v0 v1) {w w' : Vars F G1 G2} {c c' : VarComs F G1 G2} (h : SameComs crs w w' c c')
    {P : Picks} (hP : P.Agree w w') : openPicks P w c = openPicks P w' c' := by
  obtain ⟨eX, ex, eY, ey, oX, ox, oY, oy, oX', ox', oY', oy'⟩ := h
  rw [hu] at oX ox oX' ox'
  rw [hv] at oY oy oY' oy'
  simp only [openPicks, openAt, Prod.mk.injEq]
  refine ⟨List.map_congr_left fun i hi => ?_, List.map_congr_left fun i hi => ?_, List.map_congr_left fun i hi => ?_,
    List.map_congr_left fun i hi => ?_⟩
  · rw [rows_group ku eX oX oX' (hP.X i hi), hP.X i hi]
  · rw [rows_scalar ku ex ox ox' (hP.x i hi), hP.x i hi]
  · rw [rows_group kv eY oY oY' (hP.Y i hi), hP.Y i hi]
  · rw [rows_scalar kv ey oy oy' (hP.y i hi), hP.y i hi]

theorem coupled (he : PrimeGroups e) (hu : crs.u = [u0, u1]) (hv : crs.v = [v0, v1])
    (ku : HidingKey crs.g1_gen a1 t1 u0 u1) (kv : HidingKey crs.g2_gen a2 t2 v0 v1) {qs : List (AnyEqu F G1 G2 GT)}
    {w w' : Vars F G1 G2} (hl : w.SameLengths w') (hf : ∀ q ∈ qs, q.Fits w) (h : ∀ q ∈ qs, q.Holds e w)
    (h' : ∀ q ∈ qs, q.Holds e w') {P : Picks} (hP : P.Agree w w') (sch sch' : Nat → Nat → Scheduler) :
    Coupled (F := F) (w.draws + (qs.map AnyEqu.draws).sum) (fun s => proveStatement sch qs w crs s)
      (fun s => proveStatement sch' qs w' crs s) fun r r' =>
        (jointView r, openPicks P w r.1) = (jointView r', openPicks P w' r'.1) := by
  refine Coupled.congr ((coupled_commit hu hv ku kv w w' hl).bind fun c c' hc =>
    (proveAll_coupled (n := fun q => q.1.draws) (Rel := SamePub) qs.zipIdx fun q hq =>
      AnyEqu.prove_coupled he hu hv ku kv hl (hf _ (List.fst_mem_of_mem_zipIdx hq)) (h _ (List.fst_mem_of_mem_zipIdx hq))
        (h' _ (List.fst_mem_of_mem_zipIdx hq)) hc (sch q.2) (sch' q.2)).map (f := fun l => (c, l)) (f' := fun l => (c', l))
      (Rel' := fun r r' => (jointView r, openPicks P w r.1) = (jointView r', openPicks P w' r'.1)) fun l l' hll =>
        Prod.ext (jointView_eq hc hll) (openPicks_eq hu hv ku kv hc hP)) ?_ rfl rfl fun _ _ h => h
  rw [zipIdx_draws]

end statements

/-- Coupled programs produce the same views, with a view for each of them. -/
theorem sameViews {N : Nat} {α α' V : Type} {run : List F → Res (α × List F)} {run' : List F → Res (α' × List F)}
    {view : α → V} {view' : α' → V} (h : Coupled N run run' fun a a' => view a = view' a') :
    SameViews (N := N) (fun t => (run (List.ofFn t)).map fun r => view r.1)
      (fun t => (run' (List.ofFn t)).map fun r => view' r.1) := by
  obtain ⟨φ, h⟩ := h
  refine ⟨φ, fun t => ?_⟩
  obtain ⟨a, a', h1, h2⟩ := h t
  obtain ⟨h2, h3⟩ := h2 []
  rw [List.append_nil] at h2 h3
  refine ⟨view a, ?_, ?_⟩
  · simp only [h2]; rfl
  · simp only [h3, h1]; rfl

end Selective

/-- C102: on a simulated CRS, when the commitments of some variables are opened, any two solutions that agree on the opened
variables give the same views (here as a bijection of tapes). -/
theorem C102_statement (he : PrimeGroups e) {crs : CRS G1 G2 GT} (hs : SimulatedCrs e crs) (hg : crs.NonzeroGens)
    (qs : List (AnyEqu F G1 G2 GT)) (w w' : Vars F G1 G2) (hl : w.SameLengths w') (hf : ∀ q ∈ qs, q.Fits w)
    (h : ∀ q ∈ qs, q.Holds e w) (h' : ∀ q ∈ qs, q.Holds e w') (P : Picks) (hP : P.Agree w w')
    (sch sch' : Nat → Nat → Scheduler) :
    SameViews (N := w.draws + (qs.map AnyEqu.draws).sum) (disclosedOn P w fun s => proveStatement sch qs w crs s)
      (disclosedOn P w' fun s => proveStatement sch' qs w' crs s) := by
  obtain ⟨u0, u1, v0, v1, a1, t1, a2, t2, hu, hv, ku, kv⟩ := SimulatedCrs.keys he hs hg
  exact Selective.sameViews (view := fun r => (jointView r, openPicks P w r.1))
    (view' := fun r => (jointView r, openPicks P w' r.1)) (Selective.coupled he hu hv ku kv hl hf h h' hP sch sch')

/-- C102: the same for distributions over uniform tapes. -/
theorem C102_distribution [Fintype F] (he : PrimeGroups e) {crs : CRS G1 G2 GT} (hs : SimulatedCrs e crs)
    (hg : crs.NonzeroGens) (qs : List (AnyEqu F G1 G2 GT)) (w w' : Vars F G1 G2) (hl : w.SameLengths w')
    (hf : ∀ q ∈ qs, q.Fits w) (h : ∀ q ∈ qs, q.Holds e w) (h' : ∀ q ∈ qs, q.Holds e w') (P : Picks) (hP : P.Agree w w')
    (sch sch' : Nat → Nat → Scheduler) :
    dist (N := w.draws + (qs.map AnyEqu.draws).sum) (disclosedOn P w fun s => proveStatement sch qs w crs s) =
      dist (N := w.draws + (qs.map AnyEqu.draws).sum) (disclosedOn P w' fun s => proveStatement sch' qs w' crs s) :=
  (C102_statement he hs hg qs w w' hl hf h h' P hP sch sch').dist

/-- C102: what is handed over can be checked: each opened value and its row of randomness reproduce the published
commitment. (On a CRS of `generate_crs` no other value does: C10, C11.) -/
theorem C102_checkable {ρ : Type} [Rng ρ F G1 G2] {crs : CRS G1 G2 GT} (hu : crs.u.length = 2) (hv : crs.v.length = 2)
    (sch : Nat → Nat → Scheduler) (qs : List (AnyEqu F G1 G2 GT)) (w : Vars F G1 G2) {rng rng' : ρ} {c : VarComs F G1 G2}
    {pfs : List (EquProof F G1 G2)} (h : proveStatement sch qs w crs rng = .ok ((c, pfs), rng')) :
    ∃ u0 u1 v0 v1, crs.u = [u0, u1] ∧ crs.v = [v0, v1] ∧
      (∀ (i : Nat) x, w.X[i]? = some x →
        ∃ r s, c.X.rand[i]? = some [r, s] ∧ c.X.coms[i]? = some (groupCom u0 u1 x (r, s))) ∧
      (∀ (i : Nat) x, w.x[i]? = some x →
        ∃ r, c.x.rand[i]? = some [r] ∧ c.x.coms[i]? = some (scalarCom u0 u1 crs.g1_gen x r)) ∧
      (∀ (i : Nat) y, w.Y[i]? = some y →
        ∃ r s, c.Y.rand[i]? = some [r, s] ∧ c.Y.coms[i]? = some (groupCom v0 v1 y (r, s))) ∧
      (∀ (i : Nat) y, w.y[i]? = some y →
        ∃ r, c.y.rand[i]? = some [r] ∧ c.y.coms[i]? = some (scalarCom v0 v1 crs.g2_gen y r)) := by
  classical
  obtain ⟨c', s, hc, gX, gx, gY, gy⟩ := commit_opens hu hv w rng
  obtain ⟨u0, u1, hu2⟩ := List.length_eq_two.mp hu
  obtain ⟨v0, v1, hv2⟩ := List.length_eq_two.mp hv
  simp only [proveStatement, hc, bind_ok_iff, pure_eq_ok, Except.ok.injEq] at h
  obtain ⟨_, rfl, _, -, h⟩ := h
  obtain rfl : c' = c := congrArg (fun r => r.1.1) h
  refine ⟨u0, u1, v0, v1, hu2, hv2, fun i x hx => ?_, fun i x hx => ?_, fun i x hx => ?_, fun i x hx => ?_⟩
  · have := gX (by rintro h0; simp [h0] at hx)
    rw [hu2] at this
    exact Selective.check_group this hx
  · have := gx (by rintro h0; simp [h0] at hx)
    rw [hu2] at this
    exact Selective.check_scalar this hx
  · have := gY (by rintro h0; simp [h0] at hx)
    rw [hv2] at this
    exact Selective.check_group this hx
  · have := gy (by rintro h0; simp [h0] at hx)
    rw [hv2] at this
    exact Selective.check_scalar this hx

section games
variable [Fintype F] [Fintype G1] [Fintype G2]

/-- C102: with the CRS of `generate_crs`, an adversary that sees the CRS, chooses a statement, two solutions of it and
variables on which they agree, and tells from the published commitments and proofs and the openings of these variables
which of the two was used, breaks DDH. -/
theorem C102_indistinguishable (he : PrimeGroups e) (qs : CRS G1 G2 GT → List (AnyEqu F G1 G2 GT))
    (w w' : CRS G1 G2 GT → Vars F G1 G2) (hl : ∀ crs, (w crs).SameLengths (w' crs))
    (hf : ∀ crs, ∀ q ∈ qs crs, q.Fits (w crs)) (h : ∀ crs, ∀ q ∈ qs crs, q.Holds e (w crs))
    (h' : ∀ crs, ∀ q ∈ qs crs, q.Holds e (w' crs)) (P : CRS G1 G2 GT → Picks) (hP : ∀ crs, (P crs).Agree (w crs) (w' crs))
    (sch sch' : CRS G1 G2 GT → Nat → Nat → Scheduler)
    (D : CRS G1 G2 GT → Res (JointView G1 G2 × Openings F G1 G2) → ℝ) (hD : ∀ crs v, 0 ≤ D crs v ∧ D crs v ≤ 1) :
    let D1 := fun crs => disclosedGame (N := (w crs).draws + ((qs crs).map AnyEqu.draws).sum) (P crs) (w crs)
      (fun rng => proveStatement (sch crs) (qs crs) (w crs) crs rng) (D crs)
    let D2 := fun crs => disclosedGame (N := (w crs).draws + ((qs crs).map AnyEqu.draws).sum) (P crs) (w' crs)
      (fun rng => proveStatement (sch' crs) (qs crs) (w' crs) crs rng) (D crs)
    |bindingGame e D1 - bindingGame e D2| ≤
      sxdhAdv e D1 + sxdhAdv e D2 + (1 / Fintype.card G1 + 1 / Fintype.card G2) := by
  intro D1 D2
  have h1 := crs_hybrid (e := e) D1
  have h2 := crs_hybrid (e := e) D2
  have h3 := trapdoorGame_close (e := e) (fun crs _ _ => D1 crs) (fun crs _ _ => D2 crs) (by
      intro p1 p2 a1 a2 t1 t2 z1 z2
      obtain ⟨φ, hφ⟩ := C102_statement he ⟨p1, p2, a1, a2, t1, t2, rfl⟩ ⟨z1, z2⟩ (qs _) (w _) (w' _) (hl _) (hf _) (h _)
        (h' _) (P _) (hP _) (sch _) (sch' _)
      refine Fintype.expect_equiv φ _ _ fun t => ?_
      obtain ⟨v, h1, h2⟩ := hφ t
      rw [h1, h2]) (by
      intro crs _ _
      have k1 : 0 ≤ D1 crs ∧ D1 crs ≤ 1 := ⟨Finset.expect_nonneg fun _ _ => (hD crs _).1,
        Finset.expect_le Finset.univ_nonempty fun _ _ => (hD crs _).2⟩
      have k2 : 0 ≤ D2 crs ∧ D2 crs ≤ 1 := ⟨Finset.expect_nonneg fun _ _ => (hD crs _).1,
        Finset.expect_le Finset.univ_nonempty fun _ _ => (hD crs _).2⟩
      rw [abs_le]
      constructor <;> linarith)
  rw [abs_le] at *
  simp only [hidingGame] at h1 h2
  constructor <;> linarith

end games

/-- C102: the condition that the solutions agree on the opened variables cannot be dropped: if they differ in an opened
variable, no two runs give the same view. -/
theorem C102_agreement_needed {N : Nat} {P : Picks} {w w' : Vars F G1 G2}
    {run run' : List F → Res ((VarComs F G1 G2 × List (EquProof F G1 G2)) × List F)} (hP : ¬ P.Agree w w')
    (t t' : Fin N → F) {v v' : JointView G1 G2 × Openings F G1 G2} (h : disclosedOn P w run t = .ok v)
    (h' : disclosedOn P w' run' t' = .ok v') : v ≠ v' := by
  rintro rfl
  refine hP ?_
  have key : ∀ {r : Res ((VarComs F G1 G2 × List (EquProof F G1 G2)) × List F)} {u : Vars F G1 G2},
      (r.map fun r => (jointView r.1, openPicks P u r.1.1)) = .ok v → ∃ c, v.2 = openPicks P u c := by
    intro r u h
    cases r with
    | error p => cases h
    | ok r => cases h; exact ⟨_, rfl⟩
  obtain ⟨c, hc⟩ := key h
  obtain ⟨c', hc'⟩ := key h'
  have h := hc.symm.trans hc'
  simp only [openPicks, openAt, Prod.mk.injEq, List.map_inj_left] at h
  exact ⟨fun i hi => (h.1 i hi).1, fun i hi => (h.2.1 i hi).1, fun i hi => (h.2.2.1 i hi).1,
    fun i hi => (h.2.2.2 i hi).1⟩

namespace Ex

/-- A solution that agrees with `vars7` on the first right variables and differs from it everywhere else. -/
def vars7s : Vars K K K := ⟨[0], [0], [3, 6], [3, 6]⟩
/-- The first right variables. -/
def picks7 : Picks := ⟨[], [], [0], [0]⟩

theorem vars7s_lengths : vars7.SameLengths vars7s := ⟨rfl, rfl, rfl, rfl⟩

theorem vars7s_holds : ∀ q ∈ stmt7, q.Holds e7 vars7s := by
  intro q hq
  simp only [stmt7, List.mem_cons, List.not_mem_nil, or_false] at hq
  rcases hq with rfl | rfl | rfl | rfl | rfl
  · exact (by unfold PPE.Holds; decide : ppe7.Holds e7 [0] [3, 6])
  · exact (by unfold MSMEG1.Holds; decide : msm1_7.Holds [0] [3, 6])
  · exact (by unfold MSMEG2.Holds; decide : msm2_7.Holds [0] [3, 6])
  · exact (by unfold QuadEqu.Holds; decide : quad7.Holds [0] [3, 6])
  · exact (by unfold QuadEqu.Holds; decide : quad7.Holds [0] [3, 6])

theorem picks7_agree : picks7.Agree vars7 vars7s := by
  constructor <;> simp [picks7, vars7, vars7s]

end Ex

example (sch : Nat → Nat → Scheduler) :=
  C102_distribution Ex.prime7 Ex.sim7_simulated Ex.sim7_nonzero Ex.stmt7 Ex.vars7 Ex.vars7s Ex.vars7s_lengths
    Ex.stmt7_fits Ex.stmt7_holds Ex.vars7s_holds Ex.picks7 Ex.picks7_agree sch sch

example (sch : Nat → Nat → Scheduler) (D : CRS Ex.K Ex.K Ex.K → Res (JointView Ex.K Ex.K × Openings Ex.K Ex.K Ex.K) → ℝ)
    (hD : ∀ crs v, 0 ≤ D crs v ∧ D crs v ≤ 1) :=
  C102_indistinguishable Ex.prime7 (fun _ => Ex.stmt7) (fun _ => Ex.vars7) (fun _ => Ex.vars7s) (fun _ => Ex.vars7s_lengths)
    (fun _ => Ex.stmt7_fits) (fun _ => Ex.stmt7_holds) (fun _ => Ex.vars7s_holds) (fun _ => Ex.picks7)
    (fun _ => Ex.picks7_agree) (fun _ => sch) (fun _ => sch) D hD

/-- Runs return, so `C102_checkable` is not about nothing. -/
example (sch : Nat → Nat → Scheduler) : ∃ r, proveStatement sch Ex.stmt7 Ex.vars7 Ex.crs7 (5 : Nat) = .ok r ∧
    ∃ u0 u1 v0 v1, Ex.crs7.u = [u0, u1] ∧ Ex.crs7.v = [v0, v1] ∧
      ∃ r1 r2, r.1.1.Y.rand[1]? = some [r1, r2] ∧ r.1.1.Y.coms[1]? = some (groupCom v0 v1 4 (r1, r2)) := by
  obtain ⟨c, pfs, rng', h, -⟩ := C60_statement (e := Ex.e7) (crs := Ex.crs7) rfl rfl sch Ex.stmt7 Ex.vars7 Ex.stmt7_fits
    Ex.stmt7_holds (5 : Nat)
  obtain ⟨u0, u1, v0, v1, hu, hv, -, -, h3, -⟩ := C102_checkable rfl rfl sch Ex.stmt7 Ex.vars7 h
  exact ⟨_, h, u0, u1, v0, v1, hu, hv, h3 1 4 rfl⟩

/-- Opening the second right variables, on which the two solutions differ, tells them apart. -/
example : ¬ (⟨[], [], [1], []⟩ : Picks).Agree Ex.vars7 Ex.vars7s := fun h => absurd (h.Y 1 (by simp)) (by decide)

/-! ### Instances -/

namespace Ex

example (sch : Nat → Nat → Scheduler) := C102_statement prime7 sim7_simulated sim7_nonzero stmt7 vars7 vars7s vars7s_lengths
  stmt7_fits stmt7_holds vars7s_holds picks7 picks7_agree sch sch

theorem picks7_disagree : ¬ (⟨[], [], [1], []⟩ : Picks).Agree vars7 vars7s := fun h => absurd (h.Y 1 (by simp)) (by decide)

example : ∃ (t : Fin (vars7.draws + 0) → K) (v v' : JointView K K × Openings K K K),
    disclosedOn ⟨[], [], [1], []⟩ vars7 (fun s => proveStatement (fun _ _ => seqSched) [] vars7 sim7 s) t = .ok v ∧
    disclosedOn ⟨[], [], [1], []⟩ vars7s (fun s => proveStatement (fun _ _ => seqSched) [] vars7s sim7 s) t = .ok v' ∧ v ≠ v' := by
  refine ⟨fun _ => 1, _, _, rfl, rfl, ?_⟩
  exact C102_agreement_needed picks7_disagree (fun _ : Fin (vars7.draws + 0) => 1) (fun _ : Fin (vars7.draws + 0) => 1)
    (run := fun s => proveStatement (fun _ _ => seqSched) [] vars7 sim7 s) (run' := fun s => proveStatement (fun _ _ => seqSched) [] vars7s sim7 s) rfl rfl

end Ex

end GS
