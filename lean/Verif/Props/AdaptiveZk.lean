import Verif.Lemmas.AdaptiveZk
import Verif.Lemmas.Games
import Verif.Props.Session

/-!
# C105: a simulator without the secrets is as good as a whole program
-/

namespace GS
variable {F G1 G2 GT : Type} [Field F] [AddCommGroup G1] [Module F G1] [AddCommGroup G2] [Module F G2]
  [AddCommGroup GT] [Module F GT] [DecidableEq GT] {e : G1 →ₗ[F] G2 →ₗ[F] GT}

/-- C105: on a simulated CRS every adversary has the same output when the library answers it and when the simulator does. -/
theorem C105_perfect [Fintype F] (he : PrimeGroups e) {p1 : G1} {p2 : G2} (h1 : p1 ≠ 0) (h2 : p2 ≠ 0) (a1 a2 t1 t2 : F)
    {cd : Codecs F G1 G2} (hcd : cd.Lawful) (σ : Examiner F G1 G2 GT) :
    let crs := assembleCrs e prepareSimulatedHidingKey p1 p2 a1 a2 t1 t2
    realWorld e crs cd σ = simulatedWorld e crs cd t1 t2 σ := by
  intro crs
  have hc : crs = _ := assembleSim_eq e p1 p2 a1 a2 t1 t2
  refine Adaptive.examine_eq (u0 := ⟨p1, a1 • p1⟩) (u1 := ⟨t1 • p1, t1 • a1 • p1 - p1⟩) (v0 := ⟨p2, a2 • p2⟩)
    (v1 := ⟨t2 • p2, t2 • a2 • p2 - p2⟩) (a1 := a1) (a2 := a2) he ?_ ?_ ?_ ?_ hcd σ ?_ 0 0
  · rw [hc]
  · rw [hc]
  · rw [hc]; exact ⟨h1, he.cyclic1 _ h1, rfl, rfl⟩
  · rw [hc]; exact ⟨h2, he.cyclic2 _ h2, rfl, rfl⟩
  · rw [Adaptive.init_hide]; exact Adaptive.Rel.init

/-- C105: telling the library with the CRS of `generate_crs` from the simulator with its own CRS breaks DDH in one of the groups. -/
theorem C105_indistinguishable [Fintype F] [Fintype G1] [Fintype G2] (he : PrimeGroups e) {cd : Codecs F G1 G2} (hcd : cd.Lawful)
    (σ : CRS G1 G2 GT → Examiner F G1 G2 GT) (hσ : ∀ crs, (σ crs).Bounded) :
    let D := fun crs => realWorld e crs cd (σ crs)
    |bindingGame e D - trapdoorGame e fun crs t1 t2 => simulatedWorld e crs cd t1 t2 (σ crs)| ≤
      sxdhAdv e D + (1 / Fintype.card G1 + 1 / Fintype.card G2) := by
  intro D
  have h1 := crs_hybrid (e := e) D
  have h3 := trapdoorGame_close (e := e) (fun crs _ _ => D crs) (fun crs t1 t2 => simulatedWorld e crs cd t1 t2 (σ crs)) (by
      intro p1 p2 a1 a2 t1 t2 z1 z2
      exact C105_perfect he z1 z2 a1 a2 t1 t2 hcd _) (by
      intro crs t1 t2
      have k1 : 0 ≤ D crs ∧ D crs ≤ 1 := Adaptive.examine_mem crs cd _ _ _ (hσ crs) ..
      have k2 : 0 ≤ simulatedWorld e crs cd t1 t2 (σ crs) ∧ simulatedWorld e crs cd t1 t2 (σ crs) ≤ 1 :=
        Adaptive.examine_mem crs cd _ _ _ (hσ crs) ..
      rw [abs_le]
      constructor <;> linarith)
  rw [abs_le] at *
  simp only [hidingGame] at h1
  constructor <;> linarith

omit [DecidableEq GT] in
/-- C105: the simulator is not given any secret. What it is given for a call differs from the call in the secrets only, and is the same
for all calls that differ in the secrets only. -/
theorem C105_no_secrets (op op' : ApiCall F G1 G2 GT) : op.Twins op.hide ∧ (op.Twins op' → op.hide = op'.hide) :=
  ⟨Adaptive.twins_hide op, Adaptive.hide_eq⟩

/-- The simulator answers one call after another: outcomes, and what is public after each call. -/
def Store.simulateRun {ρ : Type} [Rng ρ F G1 G2] (e : G1 →ₗ[F] G2 →ₗ[F] GT) (crs : CRS G1 G2 GT) (cd : Codecs F G1 G2) (t1 t2 : F)
    (s : Store ρ F G1 G2) : List (ApiCall F G1 G2 GT) → List (ApiOutcome × Public G1 G2)
  | [] => []
  | op :: ops =>
    let r := s.simulate e crs cd t1 t2 op.hide
    (r.1, r.2.pub) :: r.2.simulateRun e crs cd t1 t2 ops

/-- C105: two programs that differ in the secrets only get the same answers from the simulator. -/
theorem C105_same_answers {ρ : Type} [Rng ρ F G1 G2] (crs : CRS G1 G2 GT) (cd : Codecs F G1 G2) (t1 t2 : F) (s : Store ρ F G1 G2)
    {ops ops' : List (ApiCall F G1 G2 GT)} (h : List.Forall₂ ApiCall.Twins ops ops') :
    s.simulateRun e crs cd t1 t2 ops = s.simulateRun e crs cd t1 t2 ops' := by
  induction h generalizing s with
  | nil => rfl
  | cons h _ ih =>
    simp only [Store.simulateRun]
    rw [Adaptive.hide_eq h, ih]

/-! ### An example -/

namespace Ex

def ppe7_zero : PPE K K K K := ⟨[1, 2], [5], [[1, 2]], 0⟩

theorem ppe7_zero_dims : ppe7_zero.Dims 1 2 := by constructor <;> simp [ppe7_zero]
theorem ppe7_zero_holds : ppe7_zero.Holds e7 [1] [1, 0] := by unfold PPE.Holds; decide

/-- Commit to scalars and prove a quadratic equation about them, have a commitment on each side opened, write and read back the
commitments, prove a pairing product equation about other values and have a commitment to a group element opened, verify both, misuse
`prove`. -/
noncomputable def examiner7 (sch : Nat → Scheduler) (sch' : Scheduler) (D : Option (List K) → Option (List K) → Option (List K) → Public K K → ℝ) :
    Examiner K K K K :=
  .call (.commitAndProve 0 0 0 (.quad quad7 [2] [3, 4]) sch) fun _ _ =>
  .openL 0 0 fun r =>
  .openR 0 1 fun r' =>
  .call (.reloadR 0 .Yes .Yes) fun _ _ =>
  .call (.commitAndProve 1 1 1 (.ppe ppe7_zero [1] [1, 0]) sch) fun _ _ =>
  .openL 1 0 fun r'' =>
  .call (.verify 0 0 0 (.quad quad7) sch') fun _ _ =>
  .call (.verify 1 1 1 (.ppe ppe7_zero) sch') fun _ _ =>
  .call (.prove 2 0 1 (.quad quad7 [2] [3, 4]) sch) fun _ P =>
  .stop (D r r' r'' P)

theorem examine_call {crs : CRS K K K} {cd : Codecs K K K} {t1 t2 : K} {b : Bool} {op : ApiCall K K K K}
    {next : ApiOutcome → Public K K → Examiner K K K K} {L : Ledger K K K K} {s : Store (List K) K K K} (ha : L.HonestCall e7 op)
    (hs : op.Simulatable) (h : ∀ o P s, examine e7 crs cd t1 t2 b (next o P) (L.step op) s = 1) :
    examine e7 crs cd t1 t2 b (.call op next) L s = 1 := by
  rw [examine, if_pos ⟨ha, hs⟩]
  exact (Finset.expect_congr rfl fun t _ => h ..).trans (Fintype.expect_const (1 : ℝ))

/-- All moves of `examiner7` are allowed, in both worlds and on every CRS. -/
theorem examiner7_plays (crs : CRS K K K) (cd : Codecs K K K) (t1 t2 : K) (b : Bool) (sch : Nat → Scheduler) (sch' : Scheduler) :
    examine e7 crs cd t1 t2 b (examiner7 sch sch' fun _ _ _ _ => 1) Ledger.init (Store.init []) = 1 := by
  have w1 : (Claim.quad quad7 [2] [3, 4] : Claim K K K K).WellFormed := ⟨by simp [Claim.xs, Batch.vals], by simp [Claim.ys, Batch.vals], quad7_dims⟩
  have w2 : (Claim.ppe ppe7_zero [1] [1, 0] : Claim K K K K).WellFormed :=
    ⟨by simp [Claim.xs, Batch.vals], by simp [Claim.ys, Batch.vals], ppe7_zero_dims⟩
  refine examine_call (fun _ => quad7_holds) trivial fun _ _ _ => ?_
  rw [examine]
  simp only [Ledger.step, w1, if_true, setAt, Claim.xs, Batch.vals, List.map_cons, List.map_nil, numbered, List.getElem?_cons_zero]
  rw [examine]
  simp only [setAt, if_true, Claim.ys, List.map_cons, List.map_nil, numbered, List.getElem?_cons_succ, List.getElem?_cons_zero]
  refine examine_call ?_ trivial fun _ _ _ => ?_
  · simp [Ledger.HonestCall, Fits64, setAt]
  refine examine_call (fun _ => ppe7_zero_holds) rfl fun _ _ _ => ?_
  rw [examine]
  simp only [Ledger.step, w2, if_true, setAt, Claim.xs, Batch.vals, List.map_cons, List.map_nil, numbered, List.getElem?_cons_zero]
  refine examine_call trivial trivial fun _ _ _ => ?_
  refine examine_call trivial trivial fun _ _ _ => ?_
  refine examine_call ?_ trivial fun _ _ _ => ?_
  · intro hf
    exfalso
    obtain ⟨-, -, -, hk⟩ := hf
    have := hk ⟨4, .group 1⟩ (by simp [Ledger.step, w2, setAt, Claim.ys, Batch.vals, numbered, Ledger.init, Claim.xs])
    simp [Claim.ys, Batch.SameKind] at this
  rw [examine]

example (sch : Nat → Scheduler) (sch' : Scheduler) (D : Option (List K) → Option (List K) → Option (List K) → Public K K → ℝ) :
    realWorld e7 sim7 codecs7 (examiner7 sch sch' D) = simulatedWorld e7 sim7 codecs7 5 6 (examiner7 sch sch' D) :=
  C105_perfect prime7 (p1 := (1 : K)) (p2 := (2 : K)) (by decide) (by decide) 3 4 5 6 codecs7_lawful _

example (sch : Nat → Scheduler) (sch' : Scheduler) :=
  C105_indistinguishable prime7 codecs7_lawful (fun _ => examiner7 sch sch' fun _ _ _ _ => 1) fun _ => by
    intro _ _ _ _ _ _ _ _ _ _ _ _ _ _
    simp [Examiner.Bounded]

example (sch sch' : Nat → Scheduler) :=
  (C105_no_secrets (.prove 0 0 0 (.quad quad7 [2] [3, 4]) sch : ApiCall K K K K) (.prove 0 0 0 (.quad quad7 [0] [1, 0]) sch')).2
    ⟨rfl, rfl, rfl, rfl, rfl, rfl⟩

example (s : Store (List K) K K K) (sch sch' : Nat → Scheduler) :=
  C105_same_answers (e := e7) sim7 codecs7 5 6 s (ops := [.commitL 0 (.scalar 2), .commitAndProve 0 0 0 (.quad quad7 [2] [3, 4]) sch])
    (ops' := [.commitL 0 (.scalar 3), .commitAndProve 0 0 0 (.quad quad7 [0] [1, 0]) sch'])
    (.cons ⟨rfl, trivial⟩ (.cons ⟨rfl, rfl, rfl, rfl, rfl, rfl⟩ .nil))

end Ex

end GS
