import Verif.Lemmas.Joint
import Verif.Lemmas.Games
import Verif.Props.Commitments
import Verif.Props.Simulation

/-!
# C60 to C63: statements of several equations of any kinds about shared commitments

`proveStatement` commits once to four lists of variables and proves every equation of a list about these commitments.
-/

set_option linter.unusedSectionVars false

open scoped BigOperators

namespace GS
variable {F G1 G2 GT : Type} [Field F] [AddCommGroup G1] [Module F G1] [AddCommGroup G2] [Module F G2]
  [AddCommGroup GT] [Module F GT] {e : G1 →ₗ[F] G2 →ₗ[F] GT}

/-! ### C60 -/

section complete
variable {ρ : Type} [Rng ρ F G1 G2] [DecidableEq GT]

/-- The commitments open to the variables, except that nothing is said about empty lists. -/
theorem commit_opens {crs : CRS G1 G2 GT} (hu : crs.u.length = 2) (hv : crs.v.length = 2) (w : Vars F G1 G2) (rng : ρ) :
    ∃ (c : VarComs F G1 G2) (rng' : ρ), w.commit crs rng = .ok (c, rng') ∧
      (w.X ≠ [] → c.X.OpensGroup crs.u w.X) ∧ (w.x ≠ [] → c.x.OpensScalar crs.u crs.g1_gen w.x) ∧
      (w.Y ≠ [] → c.Y.OpensGroup crs.v w.Y) ∧ (w.y ≠ [] → c.y.OpensScalar crs.v crs.g2_gen w.y) := by
  have key : ∀ {α G : Type} (batch : List α → ρ → Res (Commit F G × ρ)) (good : Commit F G → Prop) (xs : List α) (s : ρ),
      (xs ≠ [] → ∃ c s', batch xs s = .ok (c, s') ∧ good c) →
      ∃ c s', commitUnlessEmpty batch xs s = .ok (c, s') ∧ (xs ≠ [] → good c) := by
    intro α G batch good xs s h
    cases xs with
    | nil => exact ⟨_, _, rfl, fun h => absurd rfl h⟩
    | cons x xs =>
      obtain ⟨c, s', h1, h2⟩ := h (by simp)
      exact ⟨c, s', h1, fun _ => h2⟩
  obtain ⟨cX, s1, h1, g1⟩ := key (fun xs rng => batchCommitG1 xs crs rng) (fun c => c.OpensGroup crs.u w.X) w.X rng
    fun h => batchCommitG1_opens h hu
  obtain ⟨cx, s2, h2, g2⟩ := key (fun xs rng => batchCommitScalarToB1 xs crs rng)
    (fun c => c.OpensScalar crs.u crs.g1_gen w.x) w.x s1 fun h => batchCommitScalarToB1_opens h (by omega)
  obtain ⟨cY, s3, h3, g3⟩ := key (fun xs rng => batchCommitG2 xs crs rng) (fun c => c.OpensGroup crs.v w.Y) w.Y s2
    fun h => batchCommitG2_opens h hv
  obtain ⟨cy, s4, h4, g4⟩ := key (fun xs rng => batchCommitScalarToB2 xs crs rng)
    (fun c => c.OpensScalar crs.v crs.g2_gen w.y) w.y s3 fun h => batchCommitScalarToB2_opens h (by omega)
  exact ⟨⟨cX, cx, cY, cy⟩, s4, by simp [Vars.commit, h1, h2, h3, h4], g1, g2, g3, g4⟩

/-- C60: for a satisfied statement mixing any kinds of equations the prover returns, with one proof for each equation,
and every proof verifies with the shared commitments, whatever the schedules of prover and verifier. -/
theorem C60_statement {crs : CRS G1 G2 GT} (hu : crs.u.length = 2) (hv : crs.v.length = 2)
    (sch : Nat → Nat → Scheduler) (qs : List (AnyEqu F G1 G2 GT)) (w : Vars F G1 G2)
    (hf : ∀ q ∈ qs, q.Fits w) (h : ∀ q ∈ qs, q.Holds e w) (rng : ρ) :
    ∃ c pfs rng', proveStatement sch qs w crs rng = .ok ((c, pfs), rng') ∧
      List.Forall₂ (fun q pf => ∀ sch', q.verify e sch' c pf crs = .ok true) qs pfs := by
  obtain ⟨c, s, hc, gX, gx, gY, gy⟩ := commit_opens hu hv w rng
  obtain ⟨u0, u1, u', hu'⟩ := cons2_of_length hu.ge
  obtain ⟨v0, v1, v', hv'⟩ := cons2_of_length hv.ge
  obtain ⟨pfs, s', hp, gp⟩ := proveAll_forall₂ (qs := qs.zipIdx)
    (prove := fun (q : AnyEqu F G1 G2 GT × Nat) rng => q.1.prove (sch q.2) w c crs rng)
    (good := fun q pf => ∀ sch', q.1.verify e sch' c pf crs = .ok true) (by
      intro q hq s
      have hmem := List.fst_mem_of_mem_zipIdx hq
      have hf := hf _ hmem
      have h := h _ hmem
      obtain ⟨q, k⟩ := q
      cases q with
      | ppe q =>
        obtain ⟨pf, r, h3, -, -, -, h4⟩ := PPE.honest e (sch k) q w.X w.Y c.X c.Y crs s hf.1 hf.2.1 hf.2.2 hu hv
          (gX hf.1) (gY hf.2.1)
        refine ⟨pf, r, h3, fun sch' => ?_⟩
        obtain ⟨b, hb, hb'⟩ := h4 sch' ⟨c.X, c.Y, [pf]⟩ rfl rfl rfl
        rwa [hb'.mpr h] at hb
      | msmeg1 q =>
        obtain ⟨pf, r, h3, -, -, -, h4⟩ := MSMEG1.honest e (sch k) q w.X w.y c.X c.y crs s hf.1 hf.2.1 hf.2.2 hu hv'
          (gX hf.1) (gy hf.2.1)
        refine ⟨pf, r, h3, fun sch' => ?_⟩
        obtain ⟨b, hb, hb'⟩ := h4 sch' ⟨c.X, c.y, [pf]⟩ rfl rfl rfl
        rwa [hb'.mpr (congrArg _ h)] at hb
      | msmeg2 q =>
        obtain ⟨pf, r, h3, -, -, -, h4⟩ := MSMEG2.honest e (sch k) q w.x w.Y c.x c.Y crs s hf.1 hf.2.1 hf.2.2 hu' hv
          (gx hf.1) (gY hf.2.1)
        refine ⟨pf, r, h3, fun sch' => ?_⟩
        obtain ⟨b, hb, hb'⟩ := h4 sch' ⟨c.x, c.Y, [pf]⟩ rfl rfl rfl
        rwa [hb'.mpr (congrArg _ h)] at hb
      | quad q =>
        obtain ⟨pf, r, h3, -, -, -, h4⟩ := QuadEqu.honest e (sch k) q w.x w.y c.x c.y crs s hf.1 hf.2.1 hf.2.2 hu' hv'
          (gx hf.1) (gy hf.2.1)
        refine ⟨pf, r, h3, fun sch' => ?_⟩
        obtain ⟨b, hb, hb'⟩ := h4 sch' ⟨c.x, c.y, [pf]⟩ rfl rfl rfl
        rwa [hb'.mpr (congrArg _ h)] at hb) s
  refine ⟨c, pfs, s', by simp [proveStatement, hc, hp], ?_⟩
  have := List.forall₂_map_left_iff (f := Prod.fst) (R := fun q pf => ∀ sch', q.verify e sch' c pf crs = .ok true)
    (l := qs.zipIdx) (u := pfs)
  rw [List.zipIdx_map_fst] at this
  exact this.mpr gp

end complete

namespace Ex

/-- A statement with an equation of each kind. -/
def stmt7 : List (AnyEqu K K K K) := [.ppe ppe7, .msmeg1 msm1_7, .msmeg2 msm2_7, .quad quad7, .quad quad7]
/-- A solution. -/
def vars7 : Vars K K K := ⟨[2], [2], [3, 4], [3, 4]⟩
/-- Another solution. -/
def vars7' : Vars K K K := ⟨[0], [0], [1, 0], [1, 0]⟩

theorem vars7_lengths : vars7.SameLengths vars7' := ⟨rfl, rfl, rfl, rfl⟩

theorem stmt7_fits : ∀ q ∈ stmt7, q.Fits vars7 := by
  intro q hq
  simp only [stmt7, List.mem_cons, List.not_mem_nil, or_false] at hq
  rcases hq with rfl | rfl | rfl | rfl | rfl
  · exact ⟨by simp [vars7], by simp [vars7], ppe7_dims⟩
  · exact ⟨by simp [vars7], by simp [vars7], msm1_7_dims⟩
  · exact ⟨by simp [vars7], by simp [vars7], msm2_7_dims⟩
  · exact ⟨by simp [vars7], by simp [vars7], quad7_dims⟩
  · exact ⟨by simp [vars7], by simp [vars7], quad7_dims⟩

theorem stmt7_holds : ∀ q ∈ stmt7, q.Holds e7 vars7 := by
  intro q hq
  simp only [stmt7, List.mem_cons, List.not_mem_nil, or_false] at hq
  rcases hq with rfl | rfl | rfl | rfl | rfl
  exacts [ppe7_holds, msm1_7_holds, msm2_7_holds, quad7_holds, quad7_holds]

theorem stmt7_holds' : ∀ q ∈ stmt7, q.Holds e7 vars7' := by
  intro q hq
  simp only [stmt7, List.mem_cons, List.not_mem_nil, or_false] at hq
  rcases hq with rfl | rfl | rfl | rfl | rfl
  exacts [ppe7_holds', msm1_7_holds', msm2_7_holds', quad7_holds', quad7_holds']

end Ex

example (sch : Nat → Nat → Scheduler) :=
  C60_statement (e := Ex.e7) (crs := Ex.crs7) rfl rfl sch Ex.stmt7 Ex.vars7 Ex.stmt7_fits Ex.stmt7_holds (5 : Nat)

/-! ### C61 -/

/-- C61: on a simulated CRS, commitments and all proofs of a statement are distributed in the same way for any two
solutions (here as a bijection of tapes). -/
theorem C61_statement (he : PrimeGroups e) {crs : CRS G1 G2 GT} (hs : SimulatedCrs e crs) (hg : crs.NonzeroGens)
    (qs : List (AnyEqu F G1 G2 GT)) (w w' : Vars F G1 G2) (hl : w.SameLengths w') (hf : ∀ q ∈ qs, q.Fits w)
    (h : ∀ q ∈ qs, q.Holds e w) (h' : ∀ q ∈ qs, q.Holds e w') (sch sch' : Nat → Nat → Scheduler) :
    SameViews (N := w.draws + (qs.map AnyEqu.draws).sum) (jointOn fun s => proveStatement sch qs w crs s)
      (jointOn fun s => proveStatement sch' qs w' crs s) := by
  obtain ⟨u0, u1, v0, v1, a1, t1, a2, t2, hu, hv, ku, kv⟩ := SimulatedCrs.keys he hs hg
  exact (proveStatement_coupled he hu hv ku kv hl hf h h' sch sch').sameViews

/-- C61: the same for distributions over uniform tapes. -/
theorem C61_distribution [Fintype F] (he : PrimeGroups e) {crs : CRS G1 G2 GT} (hs : SimulatedCrs e crs)
    (hg : crs.NonzeroGens) (qs : List (AnyEqu F G1 G2 GT)) (w w' : Vars F G1 G2) (hl : w.SameLengths w')
    (hf : ∀ q ∈ qs, q.Fits w) (h : ∀ q ∈ qs, q.Holds e w) (h' : ∀ q ∈ qs, q.Holds e w')
    (sch sch' : Nat → Nat → Scheduler) :
    dist (N := w.draws + (qs.map AnyEqu.draws).sum) (jointOn fun s => proveStatement sch qs w crs s) =
      dist (N := w.draws + (qs.map AnyEqu.draws).sum) (jointOn fun s => proveStatement sch' qs w' crs s) :=
  (C61_statement he hs hg qs w w' hl hf h h' sch sch').dist

example (sch : Nat → Nat → Scheduler) :=
  C61_distribution Ex.prime7 Ex.sim7_simulated Ex.sim7_nonzero Ex.stmt7 Ex.vars7 Ex.vars7' Ex.vars7_lengths
    Ex.stmt7_fits Ex.stmt7_holds Ex.stmt7_holds' sch sch

/-! ### C62 -/

/-- C62: on a simulated CRS, a simulator with the trapdoors but no solution produces the same views, for statements whose
PPEs have target 0. -/
theorem C62_statement (he : PrimeGroups e) {p1 : G1} {p2 : G2} (h1 : p1 ≠ 0) (h2 : p2 ≠ 0) (a1 a2 t1 t2 : F)
    (qs : List (AnyEqu F G1 G2 GT)) (w : Vars F G1 G2) (hf : ∀ q ∈ qs, q.Fits w) (h : ∀ q ∈ qs, q.Holds e w)
    (hs : ∀ q ∈ qs, q.Simulatable) (sch sch' : Nat → Nat → Scheduler) :
    let crs := assembleCrs e prepareSimulatedHidingKey p1 p2 a1 a2 t1 t2
    SameViews (N := w.draws + (qs.map AnyEqu.draws).sum) (jointOn fun s => proveStatement sch qs w crs s)
      (jointOn fun s => simulateStatement sch' qs t1 t2 w crs s) := by
  obtain ⟨u0, u1, v0, v1, hu, hv, ku, kv⟩ := simulated_keys he h1 h2 (a1 := a1) (a2 := a2) (t1 := t1) (t2 := t2)
  exact (simulateStatement_coupled he hu hv ku kv hf h hs sch sch').sameViews

/-- C62: of `w`, the simulator uses only the numbers of variables. -/
theorem C62_no_witness {ρ : Type} [Rng ρ F G1 G2] (sch : Nat → Nat → Scheduler) (qs : List (AnyEqu F G1 G2 GT)) (t1 t2 : F)
    (w w' : Vars F G1 G2) (hl : w.SameLengths w') (crs : CRS G1 G2 GT) (rng : ρ) :
    simulateStatement sch qs t1 t2 w crs rng = simulateStatement sch qs t1 t2 w' crs rng := by
  have : w.zeros = w'.zeros := by simp [Vars.zeros, hl.X, hl.x, hl.Y, hl.y]
  simp only [simulateStatement, this]

/-- C62: the same for distributions over uniform tapes. -/
theorem C62_distribution [Fintype F] (he : PrimeGroups e) {p1 : G1} {p2 : G2} (h1 : p1 ≠ 0) (h2 : p2 ≠ 0)
    (a1 a2 t1 t2 : F) (qs : List (AnyEqu F G1 G2 GT)) (w : Vars F G1 G2) (hf : ∀ q ∈ qs, q.Fits w)
    (h : ∀ q ∈ qs, q.Holds e w) (hs : ∀ q ∈ qs, q.Simulatable) (sch sch' : Nat → Nat → Scheduler) :
    let crs := assembleCrs e prepareSimulatedHidingKey p1 p2 a1 a2 t1 t2
    dist (N := w.draws + (qs.map AnyEqu.draws).sum) (jointOn fun s => proveStatement sch qs w crs s) =
      dist (N := w.draws + (qs.map AnyEqu.draws).sum) (jointOn fun s => simulateStatement sch' qs t1 t2 w crs s) :=
  (C62_statement he h1 h2 a1 a2 t1 t2 qs w hf h hs sch sch').dist

namespace Ex

/-- A PPE with target 0. -/
def ppe0_7 : PPE K K K K := ⟨[1, 2], [5], [[1, 2]], 0⟩
/-- An equation in `G2` with target 0. -/
def msm0_7 : MSMEG2 K K := ⟨[1, 2], [5], [[1, 2]], 0⟩
/-- A statement that can be simulated. -/
def stmt7z : List (AnyEqu K K K K) := [.ppe ppe0_7, .msmeg1 msm1_7, .msmeg2 msm0_7, .quad quad7]
/-- A solution. -/
def vars7z : Vars K K K := ⟨[2], [2], [6, 0], [3, 4]⟩

theorem stmt7z_fits : ∀ q ∈ stmt7z, q.Fits vars7z := by
  intro q hq
  simp only [stmt7z, List.mem_cons, List.not_mem_nil, or_false] at hq
  rcases hq with rfl | rfl | rfl | rfl
  · exact ⟨by simp [vars7z], by simp [vars7z], by constructor <;> simp [ppe0_7, vars7z]⟩
  · exact ⟨by simp [vars7z], by simp [vars7z], msm1_7_dims⟩
  · exact ⟨by simp [vars7z], by simp [vars7z], by constructor <;> simp [msm0_7, vars7z]⟩
  · exact ⟨by simp [vars7z], by simp [vars7z], quad7_dims⟩

theorem stmt7z_holds : ∀ q ∈ stmt7z, q.Holds e7 vars7z := by
  intro q hq
  simp only [stmt7z, List.mem_cons, List.not_mem_nil, or_false] at hq
  rcases hq with rfl | rfl | rfl | rfl
  · exact (by unfold PPE.Holds; decide : ppe0_7.Holds e7 [2] [6, 0])
  · exact msm1_7_holds
  · exact (by unfold MSMEG2.Holds; decide : msm0_7.Holds [2] [6, 0])
  · exact quad7_holds

theorem stmt7z_simulatable : ∀ q ∈ stmt7z, q.Simulatable := by
  intro q hq
  simp only [stmt7z, List.mem_cons, List.not_mem_nil, or_false] at hq
  rcases hq with rfl | rfl | rfl | rfl
  exacts [rfl, trivial, trivial, trivial]

end Ex

example (sch : Nat → Nat → Scheduler) :=
  C62_distribution (p1 := (1 : Ex.K)) (p2 := (2 : Ex.K)) Ex.prime7 (by decide) (by decide) 3 4 5 6 Ex.stmt7z Ex.vars7z
    Ex.stmt7z_fits Ex.stmt7z_holds Ex.stmt7z_simulatable sch sch

/-- The zeros that the simulator commits to are not a solution. -/
example : ¬ AnyEqu.Holds Ex.e7 (.quad Ex.quad7) Ex.vars7z.zeros := Ex.quad7_fails

/-! ### C63 -/

section games
variable [Fintype F] [Fintype G1] [Fintype G2]

theorem jointGame_mem {N : Nat} (run : List F → Res ((VarComs F G1 G2 × List (EquProof F G1 G2)) × List F))
    {D : Res (JointView G1 G2) → ℝ} (h : ∀ v, 0 ≤ D v ∧ D v ≤ 1) :
    0 ≤ jointGame (N := N) run D ∧ jointGame (N := N) run D ≤ 1 :=
  ⟨Finset.expect_nonneg fun _ _ => (h _).1, Finset.expect_le Finset.univ_nonempty fun _ _ => (h _).2⟩

theorem SameViews.jointGame {N : Nat} {run run' : List F → Res ((VarComs F G1 G2 × List (EquProof F G1 G2)) × List F)}
    (h : SameViews (N := N) (jointOn run) (jointOn run')) (D : Res (JointView G1 G2) → ℝ) :
    jointGame (N := N) run D = GS.jointGame (N := N) run' D := by
  obtain ⟨φ, hφ⟩ := h
  refine Fintype.expect_equiv φ _ _ fun t => ?_
  obtain ⟨v, h1, h2⟩ := hφ t
  rw [h1, h2]

/-- C63: with the CRS of `generate_crs`, an adversary that sees the CRS, chooses a statement and two solutions of it, and
distinguishes which of the two was used for the published commitments and proofs, breaks DDH. -/
theorem C63_indistinguishable (he : PrimeGroups e) (qs : CRS G1 G2 GT → List (AnyEqu F G1 G2 GT))
    (w w' : CRS G1 G2 GT → Vars F G1 G2) (hl : ∀ crs, (w crs).SameLengths (w' crs))
    (hf : ∀ crs, ∀ q ∈ qs crs, q.Fits (w crs)) (h : ∀ crs, ∀ q ∈ qs crs, q.Holds e (w crs))
    (h' : ∀ crs, ∀ q ∈ qs crs, q.Holds e (w' crs)) (sch sch' : CRS G1 G2 GT → Nat → Nat → Scheduler)
    (D : CRS G1 G2 GT → Res (JointView G1 G2) → ℝ) (hD : ∀ crs v, 0 ≤ D crs v ∧ D crs v ≤ 1) :
    let D1 := fun crs => jointGame (N := (w crs).draws + ((qs crs).map AnyEqu.draws).sum)
      (fun rng => proveStatement (sch crs) (qs crs) (w crs) crs rng) (D crs)
    let D2 := fun crs => jointGame (N := (w crs).draws + ((qs crs).map AnyEqu.draws).sum)
      (fun rng => proveStatement (sch' crs) (qs crs) (w' crs) crs rng) (D crs)
    |bindingGame e D1 - bindingGame e D2| ≤
      sxdhAdv e D1 + sxdhAdv e D2 + (1 / Fintype.card G1 + 1 / Fintype.card G2) := by
  intro D1 D2
  have h1 := crs_hybrid (e := e) D1
  have h2 := crs_hybrid (e := e) D2
  have h3 := trapdoorGame_close (e := e) (fun crs _ _ => D1 crs) (fun crs _ _ => D2 crs) (by
      intro p1 p2 a1 a2 t1 t2 z1 z2
      exact (C61_statement he ⟨p1, p2, a1, a2, t1, t2, rfl⟩ ⟨z1, z2⟩ (qs _) (w _) (w' _) (hl _) (hf _) (h _) (h' _)
        (sch _) (sch' _)).jointGame _) (by
      intro crs _ _
      have k1 : 0 ≤ D1 crs ∧ D1 crs ≤ 1 := jointGame_mem _ (hD crs)
      have k2 : 0 ≤ D2 crs ∧ D2 crs ≤ 1 := jointGame_mem _ (hD crs)
      rw [abs_le]
      constructor <;> linarith)
  rw [abs_le] at *
  simp only [hidingGame] at h1 h2
  constructor <;> linarith

example (sch : Nat → Nat → Scheduler) (D : CRS Ex.K Ex.K Ex.K → Res (JointView Ex.K Ex.K) → ℝ)
    (hD : ∀ crs v, 0 ≤ D crs v ∧ D crs v ≤ 1) :=
  C63_indistinguishable Ex.prime7 (fun _ => Ex.stmt7) (fun _ => Ex.vars7) (fun _ => Ex.vars7') (fun _ => Ex.vars7_lengths)
    (fun _ => Ex.stmt7_fits) (fun _ => Ex.stmt7_holds) (fun _ => Ex.stmt7_holds') (fun _ => sch) (fun _ => sch) D hD

/-- C63: with the CRS of `generate_crs`, an adversary that sees the CRS and chooses a statement with a solution does not
distinguish the published commitments and proofs from what the simulator makes without the solution, on a CRS of which
it knows the trapdoors, unless it breaks DDH. -/
theorem C63_zero_knowledge (he : PrimeGroups e) (qs : CRS G1 G2 GT → List (AnyEqu F G1 G2 GT))
    (w : CRS G1 G2 GT → Vars F G1 G2) (hf : ∀ crs, ∀ q ∈ qs crs, q.Fits (w crs))
    (h : ∀ crs, ∀ q ∈ qs crs, q.Holds e (w crs)) (hs : ∀ crs, ∀ q ∈ qs crs, q.Simulatable)
    (sch sch' : CRS G1 G2 GT → Nat → Nat → Scheduler)
    (D : CRS G1 G2 GT → Res (JointView G1 G2) → ℝ) (hD : ∀ crs v, 0 ≤ D crs v ∧ D crs v ≤ 1) :
    let D1 := fun crs => jointGame (N := (w crs).draws + ((qs crs).map AnyEqu.draws).sum)
      (fun rng => proveStatement (sch crs) (qs crs) (w crs) crs rng) (D crs)
    let D2 := fun crs t1 t2 => jointGame (N := (w crs).draws + ((qs crs).map AnyEqu.draws).sum)
      (fun rng => simulateStatement (sch' crs) (qs crs) t1 t2 (w crs) crs rng) (D crs)
    |bindingGame e D1 - trapdoorGame e D2| ≤ sxdhAdv e D1 + (1 / Fintype.card G1 + 1 / Fintype.card G2) := by
  intro D1 D2
  have h1 := crs_hybrid (e := e) D1
  have h3 := trapdoorGame_close (e := e) (fun crs _ _ => D1 crs) D2 (by
      intro p1 p2 a1 a2 t1 t2 z1 z2
      exact (C62_statement he z1 z2 a1 a2 t1 t2 (qs _) (w _) (hf _) (h _) (hs _) (sch _) (sch' _)).jointGame _) (by
      intro crs t1 t2
      have k1 : 0 ≤ D1 crs ∧ D1 crs ≤ 1 := jointGame_mem _ (hD crs)
      have k2 : 0 ≤ D2 crs t1 t2 ∧ D2 crs t1 t2 ≤ 1 := jointGame_mem _ (hD crs)
      rw [abs_le]
      constructor <;> linarith)
  rw [abs_le] at *
  simp only [hidingGame] at h1
  constructor <;> linarith

example (sch : Nat → Nat → Scheduler) (D : CRS Ex.K Ex.K Ex.K → Res (JointView Ex.K Ex.K) → ℝ)
    (hD : ∀ crs v, 0 ≤ D crs v ∧ D crs v ≤ 1) :=
  C63_zero_knowledge Ex.prime7 (fun _ => Ex.stmt7z) (fun _ => Ex.vars7z) (fun _ => Ex.stmt7z_fits)
    (fun _ => Ex.stmt7z_holds) (fun _ => Ex.stmt7z_simulatable) (fun _ => sch) (fun _ => sch) D hD

end games

/-! ### Instances -/

namespace Ex

example (sch : Nat → Nat → Scheduler) := C61_statement prime7 sim7_simulated sim7_nonzero stmt7 vars7 vars7' vars7_lengths
  stmt7_fits stmt7_holds stmt7_holds' sch sch
example (sch : Nat → Nat → Scheduler) := C62_statement (p1 := (1 : K)) (p2 := (2 : K)) prime7 (by decide) (by decide) 3 4 5 6
  stmt7z vars7z stmt7z_fits stmt7z_holds stmt7z_simulatable sch sch
example (sch : Nat → Nat → Scheduler) := C62_no_witness sch stmt7z 5 6 vars7 vars7' vars7_lengths sim7 (1 : Nat)

end Ex

end GS
