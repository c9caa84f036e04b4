import Verif.Lemmas.Closed
import Verif.Lemmas.Tape
import Verif.Props.Example
import Verif.Props.Matrices

/-!
# C23, C36, C37, C38, C43, C47, C48: schedules, domains and shapes of proving and verifying
-/

set_option linter.unusedSectionVars false

namespace GS
variable {F G1 G2 GT : Type} [Field F] [AddCommGroup G1] [Module F G1] [AddCommGroup G2] [Module F G2]
  [AddCommGroup GT] [Module F GT] {ρ : Type} [Rng ρ F G1 G2]

/-! ### C23 -/

/-- C23: `prove` under two schedules. -/
theorem C23_prove (sch sch' : Nat → Scheduler) (crs : CRS G1 G2 GT) (rng : ρ) (xc : Commit F G1) (yc : Commit F G2) :
    (∀ (equ : PPE F G1 G2 GT) x y, SameOutcome (equ.prove sch x y xc yc crs rng) (equ.prove sch' x y xc yc crs rng)) ∧
    (∀ (equ : MSMEG1 F G1) x y, SameOutcome (equ.prove sch x y xc yc crs rng) (equ.prove sch' x y xc yc crs rng)) ∧
    (∀ (equ : MSMEG2 F G2) x y, SameOutcome (equ.prove sch x y xc yc crs rng) (equ.prove sch' x y xc yc crs rng)) ∧
    (∀ (equ : QuadEqu F) x y, SameOutcome (equ.prove sch x y xc yc crs rng) (equ.prove sch' x y xc yc crs rng)) := by
  refine ⟨?_, ?_, ?_, ?_⟩ <;> intro equ x y <;> refine sameOutcome_of fun r => ?_
  · rw [PPE.prove_eq, PPE.prove_eq]; exact proveCore_sch
  · rw [MSMEG1.prove_eq, MSMEG1.prove_eq]; exact proveCore_sch
  · rw [MSMEG2.prove_eq, MSMEG2.prove_eq]; exact proveCore_sch
  · rw [QuadEqu.prove_eq, QuadEqu.prove_eq]; exact proveCore_sch

/-- C23: `commit_and_prove` under two schedules. -/
theorem C23_commit_and_prove (sch sch' : Nat → Scheduler) (crs : CRS G1 G2 GT) (rng : ρ) :
    (∀ (equ : PPE F G1 G2 GT) x y,
      SameOutcome (equ.commitAndProve sch x y crs rng) (equ.commitAndProve sch' x y crs rng)) ∧
    (∀ (equ : MSMEG1 F G1) x y,
      SameOutcome (equ.commitAndProve sch x y crs rng) (equ.commitAndProve sch' x y crs rng)) ∧
    (∀ (equ : MSMEG2 F G2) x y,
      SameOutcome (equ.commitAndProve sch x y crs rng) (equ.commitAndProve sch' x y crs rng)) ∧
    (∀ (equ : QuadEqu F) x y,
      SameOutcome (equ.commitAndProve sch x y crs rng) (equ.commitAndProve sch' x y crs rng)) := by
  refine ⟨?_, ?_, ?_, ?_⟩ <;> intro equ x y <;> refine sameOutcome_of fun r => ?_
  · simp only [PPE.commitAndProve, bind_ok_iff, ((C23_prove sch sch' _ _ _ _).1 _ _ _).1]
  · simp only [MSMEG1.commitAndProve, bind_ok_iff, ((C23_prove sch sch' _ _ _ _).2.1 _ _ _).1]
  · simp only [MSMEG2.commitAndProve, bind_ok_iff, ((C23_prove sch sch' _ _ _ _).2.2.1 _ _ _).1]
  · simp only [QuadEqu.commitAndProve, bind_ok_iff, ((C23_prove sch sch' _ _ _ _).2.2.2 _ _ _).1]

variable [DecidableEq GT] in
/-- C23: `verify` under two schedules. -/
theorem C23_verify (e : G1 →ₗ[F] G2 →ₗ[F] GT) (sch sch' : Scheduler) (crs : CRS G1 G2 GT) (cp : CProof F G1 G2) :
    (∀ equ : PPE F G1 G2 GT, SameOutcome (equ.verify e sch cp crs) (equ.verify e sch' cp crs)) ∧
    (∀ equ : MSMEG1 F G1, SameOutcome (equ.verify e sch cp crs) (equ.verify e sch' cp crs)) ∧
    (∀ equ : MSMEG2 F G2, SameOutcome (equ.verify e sch cp crs) (equ.verify e sch' cp crs)) ∧
    (∀ equ : QuadEqu F, SameOutcome (equ.verify e sch cp crs) (equ.verify e sch' cp crs)) := by
  refine ⟨?_, ?_, ?_, ?_⟩ <;> intro equ <;> refine sameOutcome_of fun r => ?_
  · simp only [PPE.verify_iff, verifyCore_iff]
  · simp only [MSMEG1.verify_iff, verifyCore_iff]
  · simp only [MSMEG2.verify_iff, verifyCore_iff]
  · simp only [QuadEqu.verify_iff, verifyCore_iff]

/-- Two different schedules of the same product, and both agree also when the call panics. -/
example : SameOutcome (Ex.ppe7.commitAndProve (fun _ => backwards) [2] [3, 4] Ex.crs7 (0 : Nat))
    (Ex.ppe7.commitAndProve (fun _ => forwards) [2] [3, 4] Ex.crs7 (0 : Nat)) :=
  (C23_commit_and_prove _ _ _ _).1 _ _ _

/-! ### C36 -/

section
variable (sch : Nat → Scheduler) (crs : CRS G1 G2 GT) (rng : ρ) (xc : Commit F G1) (yc : Commit F G2)

/-- C36, PPE. -/
theorem C36_ppe (equ : PPE F G1 G2 GT) (x : List G1) (y : List G2) :
    ((equ.prove sch x y xc yc crs rng).Ok ↔ x ≠ [] ∧ y ≠ [] ∧ Rect x.length 2 xc.rand ∧ Rect y.length 2 yc.rand ∧
      equ.Dims x.length y.length ∧ crs.u.length = 2 ∧ crs.v.length = 2) ∧
    ((equ.prove sch x y xc yc crs rng).Panics ↔ ¬ (x ≠ [] ∧ y ≠ [] ∧ Rect x.length 2 xc.rand ∧
      Rect y.length 2 yc.rand ∧ equ.Dims x.length y.length ∧ crs.u.length = 2 ∧ crs.v.length = 2)) :=
  ⟨PPE.prove_dom, panics_iff_not_ok.trans (not_congr PPE.prove_dom)⟩

/-- C36, MSMEG1. -/
theorem C36_msmeg1 (equ : MSMEG1 F G1) (x : List G1) (y : List F) :
    ((equ.prove sch x y xc yc crs rng).Ok ↔ x ≠ [] ∧ y ≠ [] ∧ Rect x.length 2 xc.rand ∧ Rect y.length 1 yc.rand ∧
      equ.Dims x.length y.length ∧ crs.u.length = 2 ∧ 2 ≤ crs.v.length) ∧
    ((equ.prove sch x y xc yc crs rng).Panics ↔ ¬ (x ≠ [] ∧ y ≠ [] ∧ Rect x.length 2 xc.rand ∧
      Rect y.length 1 yc.rand ∧ equ.Dims x.length y.length ∧ crs.u.length = 2 ∧ 2 ≤ crs.v.length)) :=
  ⟨MSMEG1.prove_dom, panics_iff_not_ok.trans (not_congr MSMEG1.prove_dom)⟩

/-- C36, MSMEG2. -/
theorem C36_msmeg2 (equ : MSMEG2 F G2) (x : List F) (y : List G2) :
    ((equ.prove sch x y xc yc crs rng).Ok ↔ x ≠ [] ∧ y ≠ [] ∧ Rect x.length 1 xc.rand ∧ Rect y.length 2 yc.rand ∧
      equ.Dims x.length y.length ∧ 2 ≤ crs.u.length ∧ crs.v.length = 2) ∧
    ((equ.prove sch x y xc yc crs rng).Panics ↔ ¬ (x ≠ [] ∧ y ≠ [] ∧ Rect x.length 1 xc.rand ∧
      Rect y.length 2 yc.rand ∧ equ.Dims x.length y.length ∧ 2 ≤ crs.u.length ∧ crs.v.length = 2)) :=
  ⟨MSMEG2.prove_dom, panics_iff_not_ok.trans (not_congr MSMEG2.prove_dom)⟩

/-- C36, QuadEqu. -/
theorem C36_quad (equ : QuadEqu F) (x y : List F) :
    ((equ.prove sch x y xc yc crs rng).Ok ↔ x ≠ [] ∧ y ≠ [] ∧ Rect x.length 1 xc.rand ∧ Rect y.length 1 yc.rand ∧
      equ.Dims x.length y.length ∧ 2 ≤ crs.u.length ∧ 2 ≤ crs.v.length) ∧
    ((equ.prove sch x y xc yc crs rng).Panics ↔ ¬ (x ≠ [] ∧ y ≠ [] ∧ Rect x.length 1 xc.rand ∧
      Rect y.length 1 yc.rand ∧ equ.Dims x.length y.length ∧ 2 ≤ crs.u.length ∧ 2 ≤ crs.v.length)) :=
  ⟨QuadEqu.prove_dom, panics_iff_not_ok.trans (not_congr QuadEqu.prove_dom)⟩

end

/-- C36: the exact domain of `commit_and_prove`, four types. -/
theorem C36_commit_and_prove (sch : Nat → Scheduler) (crs : CRS G1 G2 GT) (rng : ρ) :
    (∀ (equ : PPE F G1 G2 GT) x y, (equ.commitAndProve sch x y crs rng).Ok ↔
      x ≠ [] ∧ y ≠ [] ∧ equ.Dims x.length y.length ∧ crs.u.length = 2 ∧ crs.v.length = 2) ∧
    (∀ (equ : MSMEG1 F G1) x y, (equ.commitAndProve sch x y crs rng).Ok ↔
      x ≠ [] ∧ y ≠ [] ∧ equ.Dims x.length y.length ∧ crs.u.length = 2 ∧ 2 ≤ crs.v.length) ∧
    (∀ (equ : MSMEG2 F G2) x y, (equ.commitAndProve sch x y crs rng).Ok ↔
      x ≠ [] ∧ y ≠ [] ∧ equ.Dims x.length y.length ∧ 2 ≤ crs.u.length ∧ crs.v.length = 2) ∧
    (∀ (equ : QuadEqu F) x y, (equ.commitAndProve sch x y crs rng).Ok ↔
      x ≠ [] ∧ y ≠ [] ∧ equ.Dims x.length y.length ∧ 2 ≤ crs.u.length ∧ 2 ≤ crs.v.length) := by
  classical
  refine ⟨?_, ?_, ?_, ?_⟩ <;> intro equ x y <;> constructor
  · simp only [PPE.commitAndProve, bind_isOk_iff]
    rintro ⟨⟨xc, r1⟩, -, ⟨yc, r2⟩, -, r, h, -⟩
    obtain ⟨h1, h2, -, -, h5⟩ := PPE.prove_dom.mp ⟨r, h⟩
    exact ⟨h1, h2, h5⟩
  · rintro ⟨hx, hy, hd, hu, hv⟩
    obtain ⟨cp, r, h, -⟩ := PPE.cap (e := (0 : G1 →ₗ[F] G2 →ₗ[F] GT)) (sch := sch) (rng := rng) hx hy hd hu hv
    exact ⟨_, h⟩
  · simp only [MSMEG1.commitAndProve, bind_isOk_iff]
    rintro ⟨⟨xc, r1⟩, -, ⟨yc, r2⟩, -, r, h, -⟩
    obtain ⟨h1, h2, -, -, h5⟩ := MSMEG1.prove_dom.mp ⟨r, h⟩
    exact ⟨h1, h2, h5⟩
  · rintro ⟨hx, hy, hd, hu, hv⟩
    obtain ⟨v0, v1, v', hv⟩ := cons2_of_length hv
    obtain ⟨cp, r, h, -⟩ := MSMEG1.cap (e := (0 : G1 →ₗ[F] G2 →ₗ[F] GT)) (sch := sch) (rng := rng) hx hy hd hu hv
    exact ⟨_, h⟩
  · simp only [MSMEG2.commitAndProve, bind_isOk_iff]
    rintro ⟨⟨xc, r1⟩, -, ⟨yc, r2⟩, -, r, h, -⟩
    obtain ⟨h1, h2, -, -, h5⟩ := MSMEG2.prove_dom.mp ⟨r, h⟩
    exact ⟨h1, h2, h5⟩
  · rintro ⟨hx, hy, hd, hu, hv⟩
    obtain ⟨u0, u1, u', hu⟩ := cons2_of_length hu
    obtain ⟨cp, r, h, -⟩ := MSMEG2.cap (e := (0 : G1 →ₗ[F] G2 →ₗ[F] GT)) (sch := sch) (rng := rng) hx hy hd hu hv
    exact ⟨_, h⟩
  · simp only [QuadEqu.commitAndProve, bind_isOk_iff]
    rintro ⟨⟨xc, r1⟩, -, ⟨yc, r2⟩, -, r, h, -⟩
    obtain ⟨h1, h2, -, -, h5⟩ := QuadEqu.prove_dom.mp ⟨r, h⟩
    exact ⟨h1, h2, h5⟩
  · rintro ⟨hx, hy, hd, hu, hv⟩
    obtain ⟨u0, u1, u', hu⟩ := cons2_of_length hu
    obtain ⟨v0, v1, v', hv⟩ := cons2_of_length hv
    obtain ⟨cp, r, h, -⟩ := QuadEqu.cap (e := (0 : G1 →ₗ[F] G2 →ₗ[F] GT)) (sch := sch) (rng := rng) hx hy hd hu hv
    exact ⟨_, h⟩

/-- C36: a commitment holding scalar randomness in one row and group randomness in another is never accepted, by any
of the four provers. -/
theorem C36_no_mixed_randomness (sch : Nat → Scheduler) (crs : CRS G1 G2 GT) (rng : ρ) (xc : Commit F G1)
    (yc : Commit F G2) (h : (∃ r ∈ xc.rand, ∃ r' ∈ xc.rand, r.length ≠ r'.length) ∨
      (∃ r ∈ yc.rand, ∃ r' ∈ yc.rand, r.length ≠ r'.length)) :
    (∀ (equ : PPE F G1 G2 GT) x y, (equ.prove sch x y xc yc crs rng).Panics) ∧
    (∀ (equ : MSMEG1 F G1) x y, (equ.prove sch x y xc yc crs rng).Panics) ∧
    (∀ (equ : MSMEG2 F G2) x y, (equ.prove sch x y xc yc crs rng).Panics) ∧
    (∀ (equ : QuadEqu F) x y, (equ.prove sch x y xc yc crs rng).Panics) := by
  have key : ∀ m p n q, ¬ (Rect m p xc.rand ∧ Rect n q yc.rand) := by
    rintro m p n q ⟨hx, hy⟩
    rcases h with ⟨r, hr, r', hr', hne⟩ | ⟨r, hr, r', hr', hne⟩
    · exact hne ((hx.2 r hr).trans (hx.2 r' hr').symm)
    · exact hne ((hy.2 r hr).trans (hy.2 r' hr').symm)
  refine ⟨?_, ?_, ?_, ?_⟩ <;> intro equ x y
  · exact (C36_ppe sch crs rng xc yc equ x y).2.mpr fun h => key _ _ _ _ ⟨h.2.2.1, h.2.2.2.1⟩
  · exact (C36_msmeg1 sch crs rng xc yc equ x y).2.mpr fun h => key _ _ _ _ ⟨h.2.2.1, h.2.2.2.1⟩
  · exact (C36_msmeg2 sch crs rng xc yc equ x y).2.mpr fun h => key _ _ _ _ ⟨h.2.2.1, h.2.2.2.1⟩
  · exact (C36_quad sch crs rng xc yc equ x y).2.mpr fun h => key _ _ _ _ ⟨h.2.2.1, h.2.2.2.1⟩

example (sch : Nat → Scheduler) : (Ex.ppe7.prove sch [2] [3, 4] ⟨[], [[1, 2]]⟩ ⟨[], [[3, 4], [5, 6]]⟩ Ex.crs7 (0 : Nat)).Ok :=
  (C36_ppe ..).1.mpr ⟨by simp, by simp, ⟨rfl, by simp⟩, ⟨rfl, by simp⟩, Ex.ppe7_dims, rfl, rfl⟩
example (sch : Nat → Scheduler) : (Ex.ppe7.prove sch [2] [3, 4] ⟨[], [[1]]⟩ ⟨[], [[3, 4], [5, 6]]⟩ Ex.crs7 (0 : Nat)).Panics :=
  (C36_ppe ..).2.mpr fun h => by simpa using h.2.2.1.2
example (sch : Nat → Scheduler) : (Ex.quad7.prove sch [2] [3, 4] ⟨[], [[1]]⟩ ⟨[], [[3], [5]]⟩ Ex.crs7 (0 : Nat)).Ok :=
  (C36_quad ..).1.mpr ⟨by simp, by simp, ⟨rfl, by simp⟩, ⟨rfl, by simp⟩, Ex.quad7_dims, by decide, by decide⟩
example (sch : Nat → Scheduler) : (Ex.msm1_7.prove sch [2] [3, 4] ⟨[], [[1, 2]]⟩ ⟨[], [[3], [5]]⟩ Ex.crs7 (0 : Nat)).Ok :=
  (C36_msmeg1 ..).1.mpr ⟨by simp, by simp, ⟨rfl, by simp⟩, ⟨rfl, by simp⟩, Ex.msm1_7_dims, rfl, by decide⟩
example (sch : Nat → Scheduler) : (Ex.msm2_7.prove sch [2] [3, 4] ⟨[], [[1]]⟩ ⟨[], [[3, 4], [5, 6]]⟩ Ex.crs7 (0 : Nat)).Ok :=
  (C36_msmeg2 ..).1.mpr ⟨by simp, by simp, ⟨rfl, by simp⟩, ⟨rfl, by simp⟩, Ex.msm2_7_dims, by decide, rfl⟩

/-! ### C48 -/

/-- C48: no proof without variables on both sides. -/
theorem C48_prove (sch : Nat → Scheduler) (crs : CRS G1 G2 GT) (rng : ρ) (xc : Commit F G1) (yc : Commit F G2) :
    (∀ (equ : PPE F G1 G2 GT) x y, x = [] ∨ y = [] →
      (equ.prove sch x y xc yc crs rng).Panics ∧ (equ.commitAndProve sch x y crs rng).Panics) ∧
    (∀ (equ : MSMEG1 F G1) x y, x = [] ∨ y = [] →
      (equ.prove sch x y xc yc crs rng).Panics ∧ (equ.commitAndProve sch x y crs rng).Panics) ∧
    (∀ (equ : MSMEG2 F G2) x y, x = [] ∨ y = [] →
      (equ.prove sch x y xc yc crs rng).Panics ∧ (equ.commitAndProve sch x y crs rng).Panics) ∧
    (∀ (equ : QuadEqu F) x y, x = [] ∨ y = [] →
      (equ.prove sch x y xc yc crs rng).Panics ∧ (equ.commitAndProve sch x y crs rng).Panics) := by
  refine ⟨?_, ?_, ?_, ?_⟩ <;> intro equ x y h <;> simp only [panics_iff_not_ok] <;> constructor <;> intro hk
  · have := PPE.prove_dom.mp hk; tauto
  · have := ((C36_commit_and_prove sch crs rng).1 equ x y).mp hk; tauto
  · have := MSMEG1.prove_dom.mp hk; tauto
  · have := ((C36_commit_and_prove sch crs rng).2.1 equ x y).mp hk; tauto
  · have := MSMEG2.prove_dom.mp hk; tauto
  · have := ((C36_commit_and_prove sch crs rng).2.2.1 equ x y).mp hk; tauto
  · have := QuadEqu.prove_dom.mp hk; tauto
  · have := ((C36_commit_and_prove sch crs rng).2.2.2 equ x y).mp hk; tauto

/-! ### C37 -/

section verify
variable [DecidableEq GT]
variable (e : G1 →ₗ[F] G2 →ₗ[F] GT) (sch : Scheduler) (cp : CProof F G1 G2) (crs : CRS G1 G2 GT)

theorem pairingSum_ok {xs : List (Com G1)} {ys : List (Com G2)} :
    (∃ t, ComT.pairingSum e xs ys = .ok t) ↔ xs.length = ys.length := by
  simp only [ComT.pairingSum_iff, exists_and_left, exists_eq, and_true]

theorem idx_exists {α : Type} {l : List α} : (∃ a, idx l 0 = .ok a) ↔ l ≠ [] := by
  cases l <;> simp

theorem getElem1_exists {α : Type} {l : List α} : (∃ a, l[1]? = some a) ↔ 2 ≤ l.length := by
  rcases l with _ | ⟨a, _ | ⟨b, l⟩⟩ <;> simp

/-- C37, PPE. -/
theorem C37_ppe (equ : PPE F G1 G2 GT) :
    ((equ.verify e sch cp crs).Ok ↔ ∃ pf, cp.equ_proofs = [pf] ∧ pf.equ_type = .PairingProduct ∧
      equ.a_consts.length = cp.ycoms.coms.length ∧ equ.b_consts.length = cp.xcoms.coms.length ∧
      GammaDom cp.xcoms.coms.length cp.ycoms.coms.length equ.gamma ∧
      pf.pi.length = crs.u.length ∧ pf.theta.length = crs.v.length) := by
  simp only [Res.Ok, PPE.verify_iff, verifyCore_iff]
  constructor
  · rintro ⟨r, pf, h1, h2, a, b, t, q1, q2, ha, hb, -, hq1, hq2, h3, h4, h5, -⟩
    cases ha; cases hb
    rw [length_batchLinearMap1] at h3
    rw [length_batchLinearMap2] at h4
    rw [ComT.pairingSum_iff] at hq1 hq2
    exact ⟨pf, h1, h2.symm, h3, h4.symm, h5, hq1.1.symm, hq2.1⟩
  · rintro ⟨pf, h1, h2, h3, h4, h5, h6, h7⟩
    obtain ⟨q1, hq1⟩ := (pairingSum_ok e).mpr h6.symm
    obtain ⟨q2, hq2⟩ := (pairingSum_ok e).mpr h7
    exact ⟨_, pf, h1, h2.symm, _, _, _, q1, q2, rfl, rfl, rfl, hq1, hq2, by rwa [length_batchLinearMap1],
      by rw [length_batchLinearMap2, h4], h5, rfl⟩

/-- C37, MSMEG1. -/
theorem C37_msmeg1 (equ : MSMEG1 F G1) :
    ((equ.verify e sch cp crs).Ok ↔ ∃ pf, cp.equ_proofs = [pf] ∧ pf.equ_type = .MultiScalarG1 ∧
      equ.a_consts.length = cp.ycoms.coms.length ∧ equ.b_consts.length = cp.xcoms.coms.length ∧
      GammaDom cp.xcoms.coms.length cp.ycoms.coms.length equ.gamma ∧
      pf.pi.length = crs.u.length ∧ pf.theta ≠ [] ∧ 2 ≤ crs.v.length) := by
  simp only [Res.Ok, MSMEG1.verify_iff, verifyCore_iff]
  constructor
  · rintro ⟨r, pf, h1, h2, a, b, t, q1, q2, ha, hb, ht, hq1, hq2, h3, h4, h5, -⟩
    cases ha
    rw [length_batchLinearMap1] at h3
    rw [ComT.pairingSum_iff] at hq1
    obtain ⟨w, hw, -⟩ := linearMapMSMEG1_iff.mp ht
    simp only [bind_ok_iff] at hq2
    obtain ⟨t0, ht0, -⟩ := hq2
    refine ⟨pf, h1, h2.symm, h3, ?_, h5, hq1.1.symm, idx_exists.mp ⟨_, ht0⟩, getElem1_exists.mp ⟨w, hw⟩⟩
    rw [h4]
    rcases batchScalarLinearMap2_iff.mp hb with ⟨h, rfl⟩ | ⟨_, _, rfl⟩
    · rw [h]; rfl
    · simp
  · rintro ⟨pf, h1, h2, h3, h4, h5, h6, h7, h8⟩
    obtain ⟨q1, hq1⟩ := (pairingSum_ok e).mpr h6.symm
    obtain ⟨v0, v1, v', hv⟩ := cons2_of_length h8
    have hv1 : crs.v[1]? = some v1 := by rw [hv]; rfl
    obtain ⟨t0, ht0⟩ := idx_exists.mpr h7
    refine ⟨_, pf, h1, h2.symm, _, _, _, q1, ComT.pairing e t0 v0, rfl, batchScalarLinearMap2_iff.mpr (.inr ⟨v1, hv1, rfl⟩),
      linearMapMSMEG1_iff.mpr ⟨v1, hv1, rfl⟩, hq1, ?_, by rwa [length_batchLinearMap1], by simp [h4], h5, rfl⟩
    rw [ht0, hv]; rfl

/-- C37, MSMEG2. -/
theorem C37_msmeg2 (equ : MSMEG2 F G2) :
    ((equ.verify e sch cp crs).Ok ↔ ∃ pf, cp.equ_proofs = [pf] ∧ pf.equ_type = .MultiScalarG2 ∧
      equ.a_consts.length = cp.ycoms.coms.length ∧ equ.b_consts.length = cp.xcoms.coms.length ∧
      GammaDom cp.xcoms.coms.length cp.ycoms.coms.length equ.gamma ∧
      pf.pi ≠ [] ∧ 2 ≤ crs.u.length ∧ pf.theta.length = crs.v.length) := by
  simp only [Res.Ok, MSMEG2.verify_iff, verifyCore_iff]
  constructor
  · rintro ⟨r, pf, h1, h2, a, b, t, q1, q2, ha, hb, ht, hq1, hq2, h3, h4, h5, -⟩
    cases hb
    rw [length_batchLinearMap2] at h4
    rw [ComT.pairingSum_iff] at hq2
    obtain ⟨w, hw, -⟩ := linearMapMSMEG2_iff.mp ht
    simp only [bind_ok_iff] at hq1
    obtain ⟨_, _, p0, hp0, -⟩ := hq1
    refine ⟨pf, h1, h2.symm, ?_, h4.symm, h5, idx_exists.mp ⟨_, hp0⟩, getElem1_exists.mp ⟨w, hw⟩, hq2.1⟩
    rw [← h3]
    rcases batchScalarLinearMap1_iff.mp ha with ⟨h, rfl⟩ | ⟨_, _, rfl⟩
    · rw [h]; rfl
    · simp
  · rintro ⟨pf, h1, h2, h3, h4, h5, h6, h7, h8⟩
    obtain ⟨q2, hq2⟩ := (pairingSum_ok e).mpr h8
    obtain ⟨u0, u1, u', hu⟩ := cons2_of_length h7
    have hu1 : crs.u[1]? = some u1 := by rw [hu]; rfl
    obtain ⟨p0, hp0⟩ := idx_exists.mpr h6
    refine ⟨_, pf, h1, h2.symm, _, _, _, ComT.pairing e u0 p0, q2, batchScalarLinearMap1_iff.mpr (.inr ⟨u1, hu1, rfl⟩), rfl,
      linearMapMSMEG2_iff.mpr ⟨u1, hu1, rfl⟩, ?_, hq2, by simp [h3], by rw [length_batchLinearMap2, h4], h5, rfl⟩
    rw [hp0, hu]; rfl

/-- C37, QuadEqu. -/
theorem C37_quad (equ : QuadEqu F) :
    ((equ.verify e sch cp crs).Ok ↔ ∃ pf, cp.equ_proofs = [pf] ∧ pf.equ_type = .Quadratic ∧
      equ.a_consts.length = cp.ycoms.coms.length ∧ equ.b_consts.length = cp.xcoms.coms.length ∧
      GammaDom cp.xcoms.coms.length cp.ycoms.coms.length equ.gamma ∧
      pf.pi ≠ [] ∧ 2 ≤ crs.u.length ∧ pf.theta ≠ [] ∧ 2 ≤ crs.v.length) := by
  simp only [Res.Ok, QuadEqu.verify_iff, verifyCore_iff]
  constructor
  · rintro ⟨r, pf, h1, h2, a, b, t, q1, q2, ha, hb, ht, hq1, hq2, h3, h4, h5, -⟩
    obtain ⟨w, w', hw, hw', -⟩ := linearMapQuad_iff.mp ht
    simp only [bind_ok_iff] at hq1 hq2
    obtain ⟨_, _, p0, hp0, -⟩ := hq1
    obtain ⟨t0, ht0, -⟩ := hq2
    refine ⟨pf, h1, h2.symm, ?_, ?_, h5, idx_exists.mp ⟨_, hp0⟩, getElem1_exists.mp ⟨w, hw⟩,
      idx_exists.mp ⟨_, ht0⟩, getElem1_exists.mp ⟨w', hw'⟩⟩
    · rw [← h3]
      rcases batchScalarLinearMap1_iff.mp ha with ⟨h, rfl⟩ | ⟨_, _, rfl⟩
      · rw [h]; rfl
      · simp
    · rw [h4]
      rcases batchScalarLinearMap2_iff.mp hb with ⟨h, rfl⟩ | ⟨_, _, rfl⟩
      · rw [h]; rfl
      · simp
  · rintro ⟨pf, h1, h2, h3, h4, h5, h6, h7, h8, h9⟩
    obtain ⟨u0, u1, u', hu⟩ := cons2_of_length h7
    have hu1 : crs.u[1]? = some u1 := by rw [hu]; rfl
    obtain ⟨v0, v1, v', hv⟩ := cons2_of_length h9
    have hv1 : crs.v[1]? = some v1 := by rw [hv]; rfl
    obtain ⟨p0, hp0⟩ := idx_exists.mpr h6
    obtain ⟨t0, ht0⟩ := idx_exists.mpr h8
    refine ⟨_, pf, h1, h2.symm, _, _, _, ComT.pairing e u0 p0, ComT.pairing e t0 v0, batchScalarLinearMap1_iff.mpr (.inr ⟨u1, hu1, rfl⟩),
      batchScalarLinearMap2_iff.mpr (.inr ⟨v1, hv1, rfl⟩),
      linearMapQuad_iff.mpr ⟨u1, v1, hu1, hv1, rfl⟩, ?_, ?_, by simp [h3], by simp [h4], h5, rfl⟩
    · rw [hp0, hu]; rfl
    · rw [ht0, hv]; rfl

/-- C37: on every other input `verify` panics; in particular it is not total on adversarial proofs: for each type and
every equation, CRS and schedule there are proofs on which it panics. -/
theorem C37_not_total :
    (∀ equ : PPE F G1 G2 GT, ∃ cp, (equ.verify e sch cp crs).Panics) ∧
    (∀ equ : MSMEG1 F G1, ∃ cp, (equ.verify e sch cp crs).Panics) ∧
    (∀ equ : MSMEG2 F G2, ∃ cp, (equ.verify e sch cp crs).Panics) ∧
    (∀ equ : QuadEqu F, ∃ cp, (equ.verify e sch cp crs).Panics) := by
  simp only [panics_iff_not_ok]
  refine ⟨?_, ?_, ?_, ?_⟩ <;> intro equ <;> refine ⟨⟨⟨[], []⟩, ⟨[], []⟩, []⟩, ?_⟩
  · rw [C37_ppe]; simp
  · rw [C37_msmeg1]; simp
  · rw [C37_msmeg2]; simp
  · rw [C37_quad]; simp

/-- Ragged `gamma` (longer later rows) is accepted by the verifier. -/
example : (PPE.verify Ex.e7 sch (⟨[1], [1, 2], [[1], [2, 3]], 0⟩ : PPE Ex.K Ex.K Ex.K Ex.K)
    ⟨⟨[⟨1, 1⟩, ⟨0, 2⟩], []⟩, ⟨[⟨3, 3⟩], []⟩, [⟨[⟨0, 0⟩, ⟨0, 0⟩], [⟨0, 0⟩, ⟨0, 0⟩], .PairingProduct, []⟩]⟩ Ex.crs7).Ok :=
  (C37_ppe ..).mpr ⟨_, rfl, rfl, rfl, rfl, .inr ⟨by simp, by simp, rfl, by simp, by simp⟩, rfl, rfl⟩
example : (PPE.verify Ex.e7 sch (⟨[1], [1, 2], [[1], []], 0⟩ : PPE Ex.K Ex.K Ex.K Ex.K)
    ⟨⟨[⟨1, 1⟩, ⟨0, 2⟩], []⟩, ⟨[⟨3, 3⟩], []⟩, [⟨[⟨0, 0⟩, ⟨0, 0⟩], [⟨0, 0⟩, ⟨0, 0⟩], .PairingProduct, []⟩]⟩ Ex.crs7).Panics := by
  rw [panics_iff_not_ok, C37_ppe]
  rintro ⟨pf, -, -, -, -, h, -⟩
  simp [GammaDom] at h

/-! ### C47 -/

/-- C47: a proof tagged with another type, or a `CProof` with a number of equation proofs other than one, makes
`verify` panic. -/
theorem C47_no_cross_type :
    (∀ equ : PPE F G1 G2 GT, cp.equ_proofs.length ≠ 1 ∨ (∃ pf ∈ cp.equ_proofs, pf.equ_type ≠ .PairingProduct) →
      (equ.verify e sch cp crs).Panics) ∧
    (∀ equ : MSMEG1 F G1, cp.equ_proofs.length ≠ 1 ∨ (∃ pf ∈ cp.equ_proofs, pf.equ_type ≠ .MultiScalarG1) →
      (equ.verify e sch cp crs).Panics) ∧
    (∀ equ : MSMEG2 F G2, cp.equ_proofs.length ≠ 1 ∨ (∃ pf ∈ cp.equ_proofs, pf.equ_type ≠ .MultiScalarG2) →
      (equ.verify e sch cp crs).Panics) ∧
    (∀ equ : QuadEqu F, cp.equ_proofs.length ≠ 1 ∨ (∃ pf ∈ cp.equ_proofs, pf.equ_type ≠ .Quadratic) →
      (equ.verify e sch cp crs).Panics) := by
  simp only [panics_iff_not_ok]
  refine ⟨?_, ?_, ?_, ?_⟩ <;> intro equ h hk
  · obtain ⟨pf, h1, h2, -⟩ := (C37_ppe e sch cp crs equ).mp hk
    simp [h1, h2] at h
  · obtain ⟨pf, h1, h2, -⟩ := (C37_msmeg1 e sch cp crs equ).mp hk
    simp [h1, h2] at h
  · obtain ⟨pf, h1, h2, -⟩ := (C37_msmeg2 e sch cp crs equ).mp hk
    simp [h1, h2] at h
  · obtain ⟨pf, h1, h2, -⟩ := (C37_quad e sch cp crs equ).mp hk
    simp [h1, h2] at h

/-! ### C43 -/

/-- C43: the recorded randomness is irrelevant for verification. -/
theorem C43_randomness_ignored (cp' : CProof F G1 G2) (h : cp.publicPart = cp'.publicPart) :
    (∀ equ : PPE F G1 G2 GT, SameOutcome (equ.verify e sch cp crs) (equ.verify e sch cp' crs)) ∧
    (∀ equ : MSMEG1 F G1, SameOutcome (equ.verify e sch cp crs) (equ.verify e sch cp' crs)) ∧
    (∀ equ : MSMEG2 F G2, SameOutcome (equ.verify e sch cp crs) (equ.verify e sch cp' crs)) ∧
    (∀ equ : QuadEqu F, SameOutcome (equ.verify e sch cp crs) (equ.verify e sch cp' crs)) := by
  simp only [CProof.publicPart, Prod.mk.injEq] at h
  obtain ⟨hx, hy, hp⟩ := h
  have key : ∀ P : List (Com G2) × List (Com G1) × EquType → Prop,
      (∃ pf, cp.equ_proofs = [pf] ∧ P (pf.pi, pf.theta, pf.equ_type)) ↔
      (∃ pf, cp'.equ_proofs = [pf] ∧ P (pf.pi, pf.theta, pf.equ_type)) := by
    intro P
    constructor
    · rintro ⟨pf, h1, h2⟩
      rw [h1, List.map_cons, List.map_nil, eq_comm, List.map_eq_singleton_iff] at hp
      obtain ⟨pf', h1', h3⟩ := hp
      exact ⟨pf', h1', by rw [h3]; exact h2⟩
    · rintro ⟨pf, h1, h2⟩
      rw [h1, List.map_cons, List.map_nil, List.map_eq_singleton_iff] at hp
      obtain ⟨pf', h1', h3⟩ := hp
      exact ⟨pf', h1', by rw [h3]; exact h2⟩
  refine ⟨?_, ?_, ?_, ?_⟩ <;> intro equ <;> refine sameOutcome_of fun r => ?_
  · simp only [PPE.verify_iff, hx, hy]
    exact key fun q => EquType.PairingProduct = q.2.2 ∧ verifyCore e sch equ.gamma (.ok (Com1.batchLinearMap equ.a_consts))
      (.ok (Com2.batchLinearMap equ.b_consts)) cp'.xcoms.coms cp'.ycoms.coms (.ok (ComT.linearMapPPE equ.target))
      (ComT.pairingSum e crs.u q.1) (ComT.pairingSum e q.2.1 crs.v) = .ok r
  · simp only [MSMEG1.verify_iff, hx, hy]
    exact key fun q => EquType.MultiScalarG1 = q.2.2 ∧
      verifyCore e sch equ.gamma (.ok (Com1.batchLinearMap equ.a_consts)) (Com2.batchScalarLinearMap equ.b_consts crs)
        cp'.xcoms.coms cp'.ycoms.coms (ComT.linearMapMSMEG1 e equ.target crs) (ComT.pairingSum e crs.u q.1)
        (do pure (ComT.pairing e (← idx q.2.1 0) (← idx crs.v 0))) = .ok r
  · simp only [MSMEG2.verify_iff, hx, hy]
    exact key fun q => EquType.MultiScalarG2 = q.2.2 ∧
      verifyCore e sch equ.gamma (Com1.batchScalarLinearMap equ.a_consts crs) (.ok (Com2.batchLinearMap equ.b_consts))
        cp'.xcoms.coms cp'.ycoms.coms (ComT.linearMapMSMEG2 e equ.target crs)
        (do pure (ComT.pairing e (← idx crs.u 0) (← idx q.1 0)))
        (ComT.pairingSum e q.2.1 crs.v) = .ok r
  · simp only [QuadEqu.verify_iff, hx, hy]
    exact key fun q => EquType.Quadratic = q.2.2 ∧
      verifyCore e sch equ.gamma (Com1.batchScalarLinearMap equ.a_consts crs) (Com2.batchScalarLinearMap equ.b_consts crs)
        cp'.xcoms.coms cp'.ycoms.coms (ComT.linearMapQuad e equ.target crs)
        (do pure (ComT.pairing e (← idx crs.u 0) (← idx q.1 0)))
        (do pure (ComT.pairing e (← idx q.2.1 0) (← idx crs.v 0))) = .ok r

theorem idx_append {α : Type} {l : List α} (h : l ≠ []) (l' : List α) : idx (l ++ l') 0 = idx l 0 := by
  cases l
  · exact absurd rfl h
  · rfl

/-- C43: surplus proof elements are ignored, so that an accepted proof can be changed into another accepted one. -/
theorem C43_surplus_ignored (pf : EquProof F G1 G2) (more_pi : List (Com G2)) (more_theta : List (Com G1))
    (xc : Commit F G1) (yc : Commit F G2) (hp : pf.pi ≠ []) (ht : pf.theta ≠ []) :
    (∀ equ : MSMEG1 F G1, SameOutcome (equ.verify e sch ⟨xc, yc, [pf]⟩ crs)
      (equ.verify e sch ⟨xc, yc, [{pf with theta := pf.theta ++ more_theta}]⟩ crs)) ∧
    (∀ equ : MSMEG2 F G2, SameOutcome (equ.verify e sch ⟨xc, yc, [pf]⟩ crs)
      (equ.verify e sch ⟨xc, yc, [{pf with pi := pf.pi ++ more_pi}]⟩ crs)) ∧
    (∀ equ : QuadEqu F, SameOutcome (equ.verify e sch ⟨xc, yc, [pf]⟩ crs)
      (equ.verify e sch ⟨xc, yc, [{pf with pi := pf.pi ++ more_pi, theta := pf.theta ++ more_theta}]⟩ crs)) := by
  refine ⟨?_, ?_, ?_⟩ <;> intro equ <;> refine sameOutcome_of fun r => ?_
  · simp only [MSMEG1.verify_iff, List.cons.injEq, and_true, exists_eq_left', idx_append ht]
  · simp only [MSMEG2.verify_iff, List.cons.injEq, and_true, exists_eq_left', idx_append hp]
  · simp only [QuadEqu.verify_iff, List.cons.injEq, and_true, exists_eq_left', idx_append hp, idx_append ht]

/-- C43: malleability of accepted MSMEG1 proofs (the other two types are alike). -/
theorem C43_malleable :
    (∀ equ : MSMEG1 F G1, equ.verify e sch cp crs = .ok true →
      ∃ cp', cp'.publicPart ≠ cp.publicPart ∧ equ.verify e sch cp' crs = .ok true) ∧
    (∀ equ : MSMEG2 F G2, equ.verify e sch cp crs = .ok true →
      ∃ cp', cp'.publicPart ≠ cp.publicPart ∧ equ.verify e sch cp' crs = .ok true) ∧
    (∀ equ : QuadEqu F, equ.verify e sch cp crs = .ok true →
      ∃ cp', cp'.publicPart ≠ cp.publicPart ∧ equ.verify e sch cp' crs = .ok true) := by
  obtain ⟨xc, yc, pfs⟩ := cp
  refine ⟨?_, ?_, ?_⟩ <;> intro equ h
  · obtain ⟨pf, h1, -, -, -, -, -, h2, -⟩ := (C37_msmeg1 e sch _ crs equ).mp ⟨_, h⟩
    simp only at h1; subst h1
    refine ⟨⟨xc, yc, [{pf with theta := pf.theta ++ [⟨0, 0⟩]}]⟩, by simp [CProof.publicPart], ?_⟩
    simp only [MSMEG1.verify_iff, List.cons.injEq, and_true, exists_eq_left', idx_append h2] at h ⊢
    exact h
  · obtain ⟨pf, h1, -, -, -, -, h2, -⟩ := (C37_msmeg2 e sch _ crs equ).mp ⟨_, h⟩
    simp only at h1; subst h1
    refine ⟨⟨xc, yc, [{pf with pi := pf.pi ++ [⟨0, 0⟩]}]⟩, by simp [CProof.publicPart], ?_⟩
    simp only [MSMEG2.verify_iff, List.cons.injEq, and_true, exists_eq_left', idx_append h2] at h ⊢
    exact h
  · obtain ⟨pf, h1, -, -, -, -, h2, -⟩ := (C37_quad e sch _ crs equ).mp ⟨_, h⟩
    simp only at h1; subst h1
    refine ⟨⟨xc, yc, [{pf with pi := pf.pi ++ [⟨0, 0⟩]}]⟩, by simp [CProof.publicPart], ?_⟩
    simp only [QuadEqu.verify_iff, List.cons.injEq, and_true, exists_eq_left', idx_append h2] at h ⊢
    exact h

end verify

/-! ### C38 -/

section shape
variable (sch : Nat → Scheduler) (crs : CRS G1 G2 GT) (rng rng' : ρ) (xc : Commit F G1) (yc : Commit F G2)
  (pf : EquProof F G1 G2)

/-- C38: type tag and numbers of elements of the proofs. -/
theorem C38_proofs :
    (∀ (equ : PPE F G1 G2 GT) x y, equ.prove sch x y xc yc crs rng = .ok (pf, rng') →
      pf.equ_type = equ.getType ∧ pf.equ_type = .PairingProduct ∧ pf.pi.length = 2 ∧ pf.theta.length = 2) ∧
    (∀ (equ : MSMEG1 F G1) x y, equ.prove sch x y xc yc crs rng = .ok (pf, rng') →
      pf.equ_type = equ.getType ∧ pf.equ_type = .MultiScalarG1 ∧ pf.pi.length = 2 ∧ pf.theta.length = 1) ∧
    (∀ (equ : MSMEG2 F G2) x y, equ.prove sch x y xc yc crs rng = .ok (pf, rng') →
      pf.equ_type = equ.getType ∧ pf.equ_type = .MultiScalarG2 ∧ pf.pi.length = 1 ∧ pf.theta.length = 2) ∧
    (∀ (equ : QuadEqu F) x y, equ.prove sch x y xc yc crs rng = .ok (pf, rng') →
      pf.equ_type = equ.getType ∧ pf.equ_type = .Quadratic ∧ pf.pi.length = 1 ∧ pf.theta.length = 1) := by
  refine ⟨?_, ?_, ?_, ?_⟩ <;> intro equ x y h
  · rw [PPE.prove_eq] at h
    obtain ⟨h1, -, h2, h3⟩ := proveCore_rand h
    exact ⟨h1, h1, h2, h3⟩
  · rw [MSMEG1.prove_eq] at h
    obtain ⟨h1, -, h2, h3⟩ := proveCore_rand h
    exact ⟨h1, h1, h2, h3⟩
  · rw [MSMEG2.prove_eq] at h
    obtain ⟨h1, -, h2, h3⟩ := proveCore_rand h
    exact ⟨h1, h1, h2, h3⟩
  · rw [QuadEqu.prove_eq] at h
    obtain ⟨h1, -, h2, h3⟩ := proveCore_rand h
    exact ⟨h1, h1, h2, h3⟩

/-- C38: shape of commitments, batch and single. -/
theorem C38_commitments :
    (∀ x : List G1, batchCommitG1 x crs rng = .ok (xc, rng') → xc.coms.length = x.length ∧ Rect x.length 2 xc.rand) ∧
    (∀ y : List G2, batchCommitG2 y crs rng = .ok (yc, rng') → yc.coms.length = y.length ∧ Rect y.length 2 yc.rand) ∧
    (∀ x : List F, batchCommitScalarToB1 x crs rng = .ok (xc, rng') →
      xc.coms.length = x.length ∧ Rect x.length 1 xc.rand) ∧
    (∀ y : List F, batchCommitScalarToB2 y crs rng = .ok (yc, rng') →
      yc.coms.length = y.length ∧ Rect y.length 1 yc.rand) ∧
    (∀ x : G1, commitG1 x crs rng = .ok (xc, rng') → xc.coms.length = 1 ∧ Rect 1 2 xc.rand) ∧
    (∀ y : G2, commitG2 y crs rng = .ok (yc, rng') → yc.coms.length = 1 ∧ Rect 1 2 yc.rand) ∧
    (∀ x : F, commitScalarToB1 x crs rng = .ok (xc, rng') → xc.coms.length = 1 ∧ Rect 1 1 xc.rand) ∧
    (∀ y : F, commitScalarToB2 y crs rng = .ok (yc, rng') → yc.coms.length = 1 ∧ Rect 1 1 yc.rand) := by
  refine ⟨?_, ?_, ?_, ?_, ?_, ?_, ?_, ?_⟩ <;> intro x h
  · obtain ⟨-, u0, u1, -, h⟩ := batchCommitG1_iff.mp h
    cases h; simp [Rect, drawPairs_length]; rintro _ _ _ _ rfl; rfl
  · obtain ⟨-, u0, u1, -, h⟩ := batchCommitG2_iff.mp h
    cases h; simp [Rect, drawPairs_length]; rintro _ _ _ _ rfl; rfl
  · obtain ⟨-, u0, u1, u', -, h⟩ := batchCommitScalarToB1_iff.mp h
    cases h; simp [Rect, drawF_length]
  · obtain ⟨-, u0, u1, u', -, h⟩ := batchCommitScalarToB2_iff.mp h
    cases h; simp [Rect, drawF_length]
  · obtain ⟨u0, u1, u', -, h⟩ := commitG1_iff.mp h
    cases h; simp [Rect]
  · obtain ⟨u0, u1, u', -, h⟩ := commitG2_iff.mp h
    cases h; simp [Rect]
  · obtain ⟨u0, u1, u', -, h⟩ := commitScalarToB1_iff.mp h
    cases h; simp [Rect]
  · obtain ⟨u0, u1, u', -, h⟩ := commitScalarToB2_iff.mp h
    cases h; simp [Rect]

/-- C38: what `commitAndProve` returns: a commitment per variable and one proof. -/
theorem C38_commit_and_prove (cp : CProof F G1 G2) :
    (∀ (equ : PPE F G1 G2 GT) x y, equ.commitAndProve sch x y crs rng = .ok (cp, rng') →
      (cp.xcoms.coms.length = x.length ∧ Rect x.length 2 cp.xcoms.rand) ∧
      (cp.ycoms.coms.length = y.length ∧ Rect y.length 2 cp.ycoms.rand) ∧
      ∃ pf, cp.equ_proofs = [pf] ∧ pf.equ_type = equ.getType ∧ pf.pi.length = 2 ∧ pf.theta.length = 2) ∧
    (∀ (equ : MSMEG1 F G1) x y, equ.commitAndProve sch x y crs rng = .ok (cp, rng') →
      (cp.xcoms.coms.length = x.length ∧ Rect x.length 2 cp.xcoms.rand) ∧
      (cp.ycoms.coms.length = y.length ∧ Rect y.length 1 cp.ycoms.rand) ∧
      ∃ pf, cp.equ_proofs = [pf] ∧ pf.equ_type = equ.getType ∧ pf.pi.length = 2 ∧ pf.theta.length = 1) ∧
    (∀ (equ : MSMEG2 F G2) x y, equ.commitAndProve sch x y crs rng = .ok (cp, rng') →
      (cp.xcoms.coms.length = x.length ∧ Rect x.length 1 cp.xcoms.rand) ∧
      (cp.ycoms.coms.length = y.length ∧ Rect y.length 2 cp.ycoms.rand) ∧
      ∃ pf, cp.equ_proofs = [pf] ∧ pf.equ_type = equ.getType ∧ pf.pi.length = 1 ∧ pf.theta.length = 2) ∧
    (∀ (equ : QuadEqu F) x y, equ.commitAndProve sch x y crs rng = .ok (cp, rng') →
      (cp.xcoms.coms.length = x.length ∧ Rect x.length 1 cp.xcoms.rand) ∧
      (cp.ycoms.coms.length = y.length ∧ Rect y.length 1 cp.ycoms.rand) ∧
      ∃ pf, cp.equ_proofs = [pf] ∧ pf.equ_type = equ.getType ∧ pf.pi.length = 1 ∧ pf.theta.length = 1) := by
  refine ⟨?_, ?_, ?_, ?_⟩ <;> intro equ x y h
  · simp only [PPE.commitAndProve, bind_ok_iff] at h
    obtain ⟨⟨xc, r1⟩, hx, ⟨yc, r2⟩, hy, ⟨pf, r3⟩, hp, h⟩ := h
    cases h
    have hp := (C38_proofs sch crs r2 r3 xc yc pf).1 equ x y hp
    exact ⟨(C38_commitments crs rng r1 xc yc).1 x hx, (C38_commitments crs r1 r2 xc yc).2.1 y hy, pf, rfl, hp.1, hp.2.2⟩
  · simp only [MSMEG1.commitAndProve, bind_ok_iff] at h
    obtain ⟨⟨xc, r1⟩, hx, ⟨yc, r2⟩, hy, ⟨pf, r3⟩, hp, h⟩ := h
    cases h
    have hp := (C38_proofs sch crs r2 r3 xc yc pf).2.1 equ x y hp
    exact ⟨(C38_commitments crs rng r1 xc yc).1 x hx, (C38_commitments crs r1 r2 xc yc).2.2.2.1 y hy, pf, rfl, hp.1, hp.2.2⟩
  · simp only [MSMEG2.commitAndProve, bind_ok_iff] at h
    obtain ⟨⟨xc, r1⟩, hx, ⟨yc, r2⟩, hy, ⟨pf, r3⟩, hp, h⟩ := h
    cases h
    have hp := (C38_proofs sch crs r2 r3 xc yc pf).2.2.1 equ x y hp
    exact ⟨(C38_commitments crs rng r1 xc yc).2.2.1 x hx, (C38_commitments crs r1 r2 xc yc).2.1 y hy, pf, rfl, hp.1, hp.2.2⟩
  · simp only [QuadEqu.commitAndProve, bind_ok_iff] at h
    obtain ⟨⟨xc, r1⟩, hx, ⟨yc, r2⟩, hy, ⟨pf, r3⟩, hp, h⟩ := h
    cases h
    have hp := (C38_proofs sch crs r2 r3 xc yc pf).2.2.2 equ x y hp
    exact ⟨(C38_commitments crs rng r1 xc yc).2.2.1 x hx, (C38_commitments crs r1 r2 xc yc).2.2.2.1 y hy, pf, rfl, hp.1, hp.2.2⟩

end shape

/-! ### Instances -/

namespace Ex

/-- Randomness of which one row has two entries and the other has one. -/
example (sch : Nat → Scheduler) := C36_no_mixed_randomness (F := K) sch crs7 (1 : Nat) ⟨[⟨1, 2⟩, ⟨3, 4⟩], [[1, 2], [3]]⟩ ⟨[⟨1, 2⟩], [[1, 2]]⟩
  (.inl ⟨[1, 2], by simp, [3], by simp, by decide⟩)
example (sch : Scheduler) (crs : CRS K K K) := C43_randomness_ignored (e := e7) (sch := sch) (crs := crs) (cp := ppe7_msg)
  ⟨⟨ppe7_msg.xcoms.coms, []⟩, ⟨ppe7_msg.ycoms.coms, []⟩, ppe7_msg.equ_proofs.map fun pf => { pf with rand := [] }⟩ rfl
example (sch : Scheduler) (crs : CRS K K K) (xc yc : Commit K K) := C43_surplus_ignored (e := e7) (sch := sch) (crs := crs)
  ⟨[⟨1, 2⟩], [⟨3, 4⟩], .Quadratic, []⟩ [⟨5, 6⟩] [⟨0, 1⟩] xc yc (by simp) (by simp)

end Ex

end GS
