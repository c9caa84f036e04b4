import Verif.Props.Completeness

/-!
# C77: the examples in the documentation of the equation types

/repo/src/statement.rs:114-116, 135-137, 156-158, 176-178 give, for each equation type, an equation between named
unknowns and the fields that are said to express it: `X = [U, W]`, `Y = [V]`, `A = [0]`, `B = [0, N]`,
`Γ = [[5], [0]]`.  The theorems say which equation is accepted.  `GT` is written additively, so `e(U, V)^5` is
`(5 : ℕ) • e U V`.
-/

set_option linter.unusedSectionVars false

namespace GS
variable {F G1 G2 GT : Type} [Field F] [AddCommGroup G1] [Module F G1] [AddCommGroup G2] [Module F G2]
  [AddCommGroup GT] [Module F GT]

/-- The fields documented at /repo/src/statement.rs:115-116. -/
def docPPE (N : G2) (t : GT) : PPE F G1 G2 GT := ⟨[0], [0, N], [[5], [0]], t⟩
/-- The fields documented at /repo/src/statement.rs:136-137. -/
def docMSMEG1 (n : F) (t : G1) : MSMEG1 F G1 := ⟨[0], [0, n], [[5], [0]], t⟩
/-- The fields documented at /repo/src/statement.rs:157-158. -/
def docMSMEG2 (N : G2) (t : G2) : MSMEG2 F G2 := ⟨[0], [0, N], [[5], [0]], t⟩
/-- The fields documented at /repo/src/statement.rs:177-178. -/
def docQuad (n : F) (t : F) : QuadEqu F := ⟨[0], [0, n], [[5], [0]], t⟩

variable [DecidableEq GT] {ρ : Type} [Rng ρ F G1 G2] (e : G1 →ₗ[F] G2 →ₗ[F] GT) (crs : CRS G1 G2 GT) (rng : ρ)
  (sch : Nat → Scheduler) (sch' : Scheduler)

/-- C77, PPE: the honest proof is accepted iff `e(W, N) * e(U, V)^5 = t`. -/
theorem C77_ppe (hu : crs.u.length = 2) (hv : crs.v.length = 2) (U W : G1) (V N : G2) (t : GT) :
    ∃ cp rng' b, (docPPE N t : PPE F G1 G2 GT).commitAndProve sch [U, W] [V] crs rng = .ok (cp, rng') ∧
      (docPPE N t).verify e sch' cp crs = .ok b ∧ (b = true ↔ e W N + 5 • e U V = t) := by
  obtain ⟨cp, r, b, h1, h2, h3⟩ := C09_ppe e (docPPE N t) [U, W] [V] crs rng sch sch' (by simp) (by simp)
    ⟨rfl, rfl, rfl, by simp [docPPE]⟩ hu hv
  refine ⟨cp, r, b, h1, h2, h3.trans ?_⟩
  simp [PPE.Holds, equLhs, docPPE, ofNat_smul_eq_nsmul]

/-- C77, MSMEG1: the honest proof is accepted iff `n W + 5 (v U) = t`. -/
theorem C77_msmeg1 (he : PrimeGroups e) (hc : GeneratedCrs e crs) (h0 : crs.NonzeroGens) (U W : G1) (v n : F)
    (t : G1) :
    ∃ cp rng' b, (docMSMEG1 n t).commitAndProve sch [U, W] [v] crs rng = .ok (cp, rng') ∧
      (docMSMEG1 n t).verify e sch' cp crs = .ok b ∧ (b = true ↔ n • W + 5 • (v • U) = t) := by
  obtain ⟨cp, r, b, h1, h2, h3⟩ := C09_msmeg1 e he (docMSMEG1 n t) [U, W] [v] crs rng sch sch' (by simp) (by simp)
    ⟨rfl, rfl, rfl, by simp [docMSMEG1]⟩ hc h0
  refine ⟨cp, r, b, h1, h2, h3.trans ?_⟩
  simp [MSMEG1.Holds, equLhs, docMSMEG1, ofNat_smul_eq_nsmul]

/-- C77, MSMEG2: the honest proof is accepted iff `w N + 5 (u V) = t`. -/
theorem C77_msmeg2 (he : PrimeGroups e) (hc : GeneratedCrs e crs) (h0 : crs.NonzeroGens) (u w : F) (V N : G2)
    (t : G2) :
    ∃ cp rng' b, (docMSMEG2 N t).commitAndProve sch [u, w] [V] crs rng = .ok (cp, rng') ∧
      (docMSMEG2 N t).verify e sch' cp crs = .ok b ∧ (b = true ↔ w • N + 5 • (u • V) = t) := by
  obtain ⟨cp, r, b, h1, h2, h3⟩ := C09_msmeg2 e he (docMSMEG2 N t) [u, w] [V] crs rng sch sch' (by simp) (by simp)
    ⟨rfl, rfl, rfl, by simp [docMSMEG2]⟩ hc h0
  refine ⟨cp, r, b, h1, h2, h3.trans ?_⟩
  simp [MSMEG2.Holds, equLhs, docMSMEG2, ofNat_smul_eq_nsmul]

/-- C77, QuadEqu: the honest proof is accepted iff `w n + 5 u v = t`. -/
theorem C77_quad (he : PrimeGroups e) (hc : GeneratedCrs e crs) (h0 : crs.NonzeroGens) (u w v n t : F) :
    ∃ cp rng' b, (docQuad n t).commitAndProve sch [u, w] [v] crs rng = .ok (cp, rng') ∧
      (docQuad n t).verify e sch' cp crs = .ok b ∧ (b = true ↔ w * n + 5 * (u * v) = t) := by
  obtain ⟨cp, r, b, h1, h2, h3⟩ := C09_quad e he (docQuad n t) [u, w] [v] crs rng sch sch' (by simp) (by simp)
    ⟨rfl, rfl, rfl, by simp [docQuad]⟩ hc h0
  refine ⟨cp, r, b, h1, h2, h3.trans ?_⟩
  simp [QuadEqu.Holds, equLhs, docQuad]

/-- C77: the documented exponent is not a power in the field.  In any field where `4 ≠ 0` there are values with
`w n + (u v)^5 = t`, the text of /repo/src/statement.rs:176, whose honest proof is rejected. -/
theorem C77_quad_not_power (he : PrimeGroups e) (hc : GeneratedCrs e crs) (h0 : crs.NonzeroGens)
    (h4 : (4 : F) ≠ 0) :
    ∃ u w v n t : F, w * n + (u * v) ^ 5 = t ∧
      ∃ cp rng', (docQuad n t).commitAndProve sch [u, w] [v] crs rng = .ok (cp, rng') ∧
        (docQuad n t).verify e sch' cp crs = .ok false := by
  refine ⟨1, 0, 1, 0, 1, by simp, ?_⟩
  obtain ⟨cp, r, b, h1, h2, h3⟩ := C77_quad e crs rng sch sch' he hc h0 (1 : F) 0 1 0 1
  refine ⟨cp, r, h1, ?_⟩
  cases b
  · exact h2
  · refine absurd (h3.mp rfl) fun h => h4 ?_
    have : (5 : F) - 1 = 0 := by simpa [sub_eq_zero] using h
    rw [← this]; norm_num

/-- The equation of the PPE example with `U = 1, V = 2, W = 3, N = 4`, target `3 * 4 + 5 * 2 = 1` is accepted, with
target `2` it is rejected. -/
example (sch : Nat → Scheduler) (sch' : Scheduler) :
    (∃ cp rng', (docPPE 4 1 : PPE Ex.K Ex.K Ex.K Ex.K).commitAndProve sch [1, 3] [2] Ex.crs7 (0 : Nat) = .ok (cp, rng') ∧
      (docPPE 4 1).verify Ex.e7 sch' cp Ex.crs7 = .ok true) ∧
    ∃ cp rng', (docPPE 4 2 : PPE Ex.K Ex.K Ex.K Ex.K).commitAndProve sch [1, 3] [2] Ex.crs7 (0 : Nat) = .ok (cp, rng') ∧
      (docPPE 4 2).verify Ex.e7 sch' cp Ex.crs7 = .ok false := by
  constructor
  · obtain ⟨cp, r, b, h1, h2, h3⟩ := C77_ppe Ex.e7 Ex.crs7 (0 : Nat) sch sch' rfl rfl 1 3 2 4 1
    rw [h3.mpr (by decide)] at h2
    exact ⟨cp, r, h1, h2⟩
  · obtain ⟨cp, r, b, h1, h2, h3⟩ := C77_ppe Ex.e7 Ex.crs7 (0 : Nat) sch sch' rfl rfl 1 3 2 4 2
    cases b
    · exact ⟨cp, r, h1, h2⟩
    · exact absurd (h3.mp rfl) (by decide)

/-- The hypotheses of the other three and of the last one are met. -/
example (sch : Nat → Scheduler) (sch' : Scheduler) :
    (∃ cp rng', (docMSMEG1 4 1 : MSMEG1 Ex.K Ex.K).commitAndProve sch [1, 3] [2] Ex.crs7 (0 : Nat) = .ok (cp, rng') ∧
      (docMSMEG1 4 1).verify Ex.e7 sch' cp Ex.crs7 = .ok true) ∧
    (∃ cp rng', (docMSMEG2 4 1 : MSMEG2 Ex.K Ex.K).commitAndProve sch [1, 3] [2] Ex.crs7 (0 : Nat) = .ok (cp, rng') ∧
      (docMSMEG2 4 1).verify Ex.e7 sch' cp Ex.crs7 = .ok true) ∧
    (∃ cp rng', (docQuad 4 1 : QuadEqu Ex.K).commitAndProve sch [1, 3] [2] Ex.crs7 (0 : Nat) = .ok (cp, rng') ∧
      (docQuad 4 1).verify Ex.e7 sch' cp Ex.crs7 = .ok true) ∧ (4 : Ex.K) ≠ 0 := by
  refine ⟨?_, ?_, ?_, by decide⟩
  · obtain ⟨cp, r, b, h1, h2, h3⟩ := C77_msmeg1 Ex.e7 Ex.crs7 (0 : Nat) sch sch' Ex.prime7 Ex.crs7_generated
      Ex.crs7_nonzero 1 3 (2 : Ex.K) 4 1
    rw [h3.mpr (by decide)] at h2
    exact ⟨cp, r, h1, h2⟩
  · obtain ⟨cp, r, b, h1, h2, h3⟩ := C77_msmeg2 Ex.e7 Ex.crs7 (0 : Nat) sch sch' Ex.prime7 Ex.crs7_generated
      Ex.crs7_nonzero (1 : Ex.K) 3 2 4 1
    rw [h3.mpr (by decide)] at h2
    exact ⟨cp, r, h1, h2⟩
  · obtain ⟨cp, r, b, h1, h2, h3⟩ := C77_quad Ex.e7 Ex.crs7 (0 : Nat) sch sch' Ex.prime7 Ex.crs7_generated
      Ex.crs7_nonzero (1 : Ex.K) 3 2 4 1
    rw [h3.mpr (by decide)] at h2
    exact ⟨cp, r, h1, h2⟩

/-! ### Instances -/

namespace Ex

example (sch : Nat → Scheduler) (sch' : Scheduler) := C77_quad_not_power e7 crs7 (0 : Nat) sch sch' prime7 crs7_generated crs7_nonzero (by decide)

end Ex

end GS
