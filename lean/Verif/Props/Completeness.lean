import Verif.Lemmas.Complete
import Verif.Props.Example

/-!
# C01–C04: completeness, C09: honest runs decide the statement
-/

set_option linter.unusedSectionVars false

namespace GS
variable {F G1 G2 GT : Type} [Field F] [AddCommGroup G1] [Module F G1] [AddCommGroup G2] [Module F G2]
  [AddCommGroup GT] [Module F GT] [DecidableEq GT] {ρ : Type} [Rng ρ F G1 G2]

/-- C01. -/
theorem C01_ppe_complete (e : G1 →ₗ[F] G2 →ₗ[F] GT) (equ : PPE F G1 G2 GT) (x : List G1) (y : List G2)
    (crs : CRS G1 G2 GT) (rng : ρ) (sch : Nat → Scheduler) (sch' : Scheduler)
    (hx : x ≠ []) (hy : y ≠ []) (hdims : equ.Dims x.length y.length)
    (hu : crs.u.length = 2) (hv : crs.v.length = 2) (hsat : equ.Holds e x y) :
    ∃ cp rng', equ.commitAndProve sch x y crs rng = .ok (cp, rng') ∧ equ.verify e sch' cp crs = .ok true := by
  obtain ⟨cp, rng', h, h'⟩ := PPE.cap (e := e) (sch := sch) (rng := rng) hx hy hdims hu hv
  obtain ⟨b, hb, hb'⟩ := h' sch'
  rw [hb'.mpr hsat] at hb
  exact ⟨cp, rng', h, hb⟩

/-- C01 for generated CRS. -/
theorem C01_ppe_complete_generated (e : G1 →ₗ[F] G2 →ₗ[F] GT) (equ : PPE F G1 G2 GT) (x : List G1) (y : List G2)
    (rng0 rng : ρ) (sch : Nat → Scheduler) (sch' : Scheduler)
    (hx : x ≠ []) (hy : y ≠ []) (hdims : equ.Dims x.length y.length) (hsat : equ.Holds e x y) :
    ∃ cp rng', equ.commitAndProve sch x y (generateCrs e rng0).1 rng = .ok (cp, rng') ∧
      equ.verify e sch' cp (generateCrs e rng0).1 = .ok true :=
  C01_ppe_complete e equ x y _ rng sch sch' hx hy hdims rfl rfl hsat

example (sch : Nat → Scheduler) (sch' : Scheduler) :
    ∃ cp rng', Ex.ppe7.commitAndProve sch [2] [3, 4] Ex.crs7 0 = .ok (cp, rng') ∧
      Ex.ppe7.verify Ex.e7 sch' cp Ex.crs7 = .ok true :=
  C01_ppe_complete Ex.e7 Ex.ppe7 [2] [3, 4] Ex.crs7 (0 : Nat) sch sch' (by simp) (by simp) Ex.ppe7_dims
    rfl rfl Ex.ppe7_holds

/-- C02. -/
theorem C02_msmeg1_complete (e : G1 →ₗ[F] G2 →ₗ[F] GT) (equ : MSMEG1 F G1) (x : List G1) (y : List F)
    (crs : CRS G1 G2 GT) (rng : ρ) (sch : Nat → Scheduler) (sch' : Scheduler)
    (hx : x ≠ []) (hy : y ≠ []) (hdims : equ.Dims x.length y.length)
    (hu : crs.u.length = 2) (hv : crs.v.length = 2) (hsat : equ.Holds x y) :
    ∃ cp rng', equ.commitAndProve sch x y crs rng = .ok (cp, rng') ∧ equ.verify e sch' cp crs = .ok true := by
  obtain ⟨v0, v1, hv⟩ := List.length_eq_two.mp hv
  obtain ⟨cp, rng', h, h'⟩ := MSMEG1.cap (e := e) (sch := sch) (rng := rng) hx hy hdims hu hv
  obtain ⟨b, hb, hb'⟩ := h' sch'
  rw [hb'.mpr (congrArg _ hsat)] at hb
  exact ⟨cp, rng', h, hb⟩

/-- C02 for generated CRS. -/
theorem C02_msmeg1_complete_generated (e : G1 →ₗ[F] G2 →ₗ[F] GT) (equ : MSMEG1 F G1) (x : List G1) (y : List F)
    (rng0 rng : ρ) (sch : Nat → Scheduler) (sch' : Scheduler)
    (hx : x ≠ []) (hy : y ≠ []) (hdims : equ.Dims x.length y.length) (hsat : equ.Holds x y) :
    ∃ cp rng', equ.commitAndProve sch x y (generateCrs e rng0).1 rng = .ok (cp, rng') ∧
      equ.verify e sch' cp (generateCrs e rng0).1 = .ok true :=
  C02_msmeg1_complete e equ x y _ rng sch sch' hx hy hdims rfl rfl hsat

example (sch : Nat → Scheduler) (sch' : Scheduler) :
    ∃ cp rng', Ex.msm1_7.commitAndProve sch [2] [3, 4] Ex.crs7 0 = .ok (cp, rng') ∧
      Ex.msm1_7.verify Ex.e7 sch' cp Ex.crs7 = .ok true :=
  C02_msmeg1_complete Ex.e7 Ex.msm1_7 [2] [3, 4] Ex.crs7 (0 : Nat) sch sch' (by simp) (by simp) Ex.msm1_7_dims
    rfl rfl Ex.msm1_7_holds

/-- C03. -/
theorem C03_msmeg2_complete (e : G1 →ₗ[F] G2 →ₗ[F] GT) (equ : MSMEG2 F G2) (x : List F) (y : List G2)
    (crs : CRS G1 G2 GT) (rng : ρ) (sch : Nat → Scheduler) (sch' : Scheduler)
    (hx : x ≠ []) (hy : y ≠ []) (hdims : equ.Dims x.length y.length)
    (hu : crs.u.length = 2) (hv : crs.v.length = 2) (hsat : equ.Holds x y) :
    ∃ cp rng', equ.commitAndProve sch x y crs rng = .ok (cp, rng') ∧ equ.verify e sch' cp crs = .ok true := by
  obtain ⟨u0, u1, hu⟩ := List.length_eq_two.mp hu
  obtain ⟨cp, rng', h, h'⟩ := MSMEG2.cap (e := e) (sch := sch) (rng := rng) hx hy hdims hu hv
  obtain ⟨b, hb, hb'⟩ := h' sch'
  rw [hb'.mpr (congrArg _ hsat)] at hb
  exact ⟨cp, rng', h, hb⟩

/-- C03 for generated CRS. -/
theorem C03_msmeg2_complete_generated (e : G1 →ₗ[F] G2 →ₗ[F] GT) (equ : MSMEG2 F G2) (x : List F) (y : List G2)
    (rng0 rng : ρ) (sch : Nat → Scheduler) (sch' : Scheduler)
    (hx : x ≠ []) (hy : y ≠ []) (hdims : equ.Dims x.length y.length) (hsat : equ.Holds x y) :
    ∃ cp rng', equ.commitAndProve sch x y (generateCrs e rng0).1 rng = .ok (cp, rng') ∧
      equ.verify e sch' cp (generateCrs e rng0).1 = .ok true :=
  C03_msmeg2_complete e equ x y _ rng sch sch' hx hy hdims rfl rfl hsat

example (sch : Nat → Scheduler) (sch' : Scheduler) :
    ∃ cp rng', Ex.msm2_7.commitAndProve sch [2] [3, 4] Ex.crs7 0 = .ok (cp, rng') ∧
      Ex.msm2_7.verify Ex.e7 sch' cp Ex.crs7 = .ok true :=
  C03_msmeg2_complete Ex.e7 Ex.msm2_7 [2] [3, 4] Ex.crs7 (0 : Nat) sch sch' (by simp) (by simp) Ex.msm2_7_dims
    rfl rfl Ex.msm2_7_holds

/-- C04. -/
theorem C04_quad_complete (e : G1 →ₗ[F] G2 →ₗ[F] GT) (equ : QuadEqu F) (x y : List F)
    (crs : CRS G1 G2 GT) (rng : ρ) (sch : Nat → Scheduler) (sch' : Scheduler)
    (hx : x ≠ []) (hy : y ≠ []) (hdims : equ.Dims x.length y.length)
    (hu : crs.u.length = 2) (hv : crs.v.length = 2) (hsat : equ.Holds x y) :
    ∃ cp rng', equ.commitAndProve sch x y crs rng = .ok (cp, rng') ∧ equ.verify e sch' cp crs = .ok true := by
  obtain ⟨u0, u1, hu⟩ := List.length_eq_two.mp hu
  obtain ⟨v0, v1, hv⟩ := List.length_eq_two.mp hv
  obtain ⟨cp, rng', h, h'⟩ := QuadEqu.cap (e := e) (sch := sch) (rng := rng) hx hy hdims hu hv
  obtain ⟨b, hb, hb'⟩ := h' sch'
  rw [hb'.mpr (congrArg _ hsat)] at hb
  exact ⟨cp, rng', h, hb⟩

/-- C04 for generated CRS. -/
theorem C04_quad_complete_generated (e : G1 →ₗ[F] G2 →ₗ[F] GT) (equ : QuadEqu F) (x y : List F)
    (rng0 rng : ρ) (sch : Nat → Scheduler) (sch' : Scheduler)
    (hx : x ≠ []) (hy : y ≠ []) (hdims : equ.Dims x.length y.length) (hsat : equ.Holds x y) :
    ∃ cp rng', equ.commitAndProve sch x y (generateCrs e rng0).1 rng = .ok (cp, rng') ∧
      equ.verify e sch' cp (generateCrs e rng0).1 = .ok true :=
  C04_quad_complete e equ x y _ rng sch sch' hx hy hdims rfl rfl hsat

example (sch : Nat → Scheduler) (sch' : Scheduler) :
    ∃ cp rng', Ex.quad7.commitAndProve sch [2] [3, 4] Ex.crs7 0 = .ok (cp, rng') ∧
      Ex.quad7.verify Ex.e7 sch' cp Ex.crs7 = .ok true :=
  C04_quad_complete Ex.e7 Ex.quad7 [2] [3, 4] Ex.crs7 (0 : Nat) sch sch' (by simp) (by simp) Ex.quad7_dims
    rfl rfl Ex.quad7_holds

/-! ### C09 -/

/-- C09, PPE: under any CRS with two-element keys. -/
theorem C09_ppe (e : G1 →ₗ[F] G2 →ₗ[F] GT) (equ : PPE F G1 G2 GT) (x : List G1) (y : List G2)
    (crs : CRS G1 G2 GT) (rng : ρ) (sch : Nat → Scheduler) (sch' : Scheduler)
    (hx : x ≠ []) (hy : y ≠ []) (hdims : equ.Dims x.length y.length)
    (hu : crs.u.length = 2) (hv : crs.v.length = 2) :
    ∃ cp rng' b, equ.commitAndProve sch x y crs rng = .ok (cp, rng') ∧ equ.verify e sch' cp crs = .ok b ∧
      (b = true ↔ equ.Holds e x y) := by
  obtain ⟨cp, rng', h, h'⟩ := PPE.cap (e := e) (sch := sch) (rng := rng) hx hy hdims hu hv
  obtain ⟨b, hb⟩ := h' sch'
  exact ⟨cp, rng', b, h, hb⟩

/-- C09, MSMEG1. -/
theorem C09_msmeg1 (e : G1 →ₗ[F] G2 →ₗ[F] GT) (he : PrimeGroups e) (equ : MSMEG1 F G1) (x : List G1) (y : List F)
    (crs : CRS G1 G2 GT) (rng : ρ) (sch : Nat → Scheduler) (sch' : Scheduler)
    (hx : x ≠ []) (hy : y ≠ []) (hdims : equ.Dims x.length y.length)
    (hc : GeneratedCrs e crs) (h0 : crs.NonzeroGens) :
    ∃ cp rng' b, equ.commitAndProve sch x y crs rng = .ok (cp, rng') ∧ equ.verify e sch' cp crs = .ok b ∧
      (b = true ↔ equ.Holds x y) := by
  obtain ⟨v0, v1, hv⟩ := List.length_eq_two.mp hc.length_v
  obtain ⟨cp, rng', h, h'⟩ := MSMEG1.cap (e := e) (sch := sch) (rng := rng) hx hy hdims hc.length_u hv
  obtain ⟨b, hb, hb'⟩ := h' sch'
  exact ⟨cp, rng', b, h, hb, hb'.trans (hc.tMSMEG1_inj he h0 hv).eq_iff⟩

/-- C09, MSMEG2. -/
theorem C09_msmeg2 (e : G1 →ₗ[F] G2 →ₗ[F] GT) (he : PrimeGroups e) (equ : MSMEG2 F G2) (x : List F) (y : List G2)
    (crs : CRS G1 G2 GT) (rng : ρ) (sch : Nat → Scheduler) (sch' : Scheduler)
    (hx : x ≠ []) (hy : y ≠ []) (hdims : equ.Dims x.length y.length)
    (hc : GeneratedCrs e crs) (h0 : crs.NonzeroGens) :
    ∃ cp rng' b, equ.commitAndProve sch x y crs rng = .ok (cp, rng') ∧ equ.verify e sch' cp crs = .ok b ∧
      (b = true ↔ equ.Holds x y) := by
  obtain ⟨u0, u1, hu⟩ := List.length_eq_two.mp hc.length_u
  obtain ⟨cp, rng', h, h'⟩ := MSMEG2.cap (e := e) (sch := sch) (rng := rng) hx hy hdims hu hc.length_v
  obtain ⟨b, hb, hb'⟩ := h' sch'
  exact ⟨cp, rng', b, h, hb, hb'.trans (hc.tMSMEG2_inj he h0 hu).eq_iff⟩

/-- C09, QuadEqu. -/
theorem C09_quad (e : G1 →ₗ[F] G2 →ₗ[F] GT) (he : PrimeGroups e) (equ : QuadEqu F) (x y : List F)
    (crs : CRS G1 G2 GT) (rng : ρ) (sch : Nat → Scheduler) (sch' : Scheduler)
    (hx : x ≠ []) (hy : y ≠ []) (hdims : equ.Dims x.length y.length)
    (hc : GeneratedCrs e crs) (h0 : crs.NonzeroGens) :
    ∃ cp rng' b, equ.commitAndProve sch x y crs rng = .ok (cp, rng') ∧ equ.verify e sch' cp crs = .ok b ∧
      (b = true ↔ equ.Holds x y) := by
  obtain ⟨u0, u1, hu⟩ := List.length_eq_two.mp hc.length_u
  obtain ⟨v0, v1, hv⟩ := List.length_eq_two.mp hc.length_v
  obtain ⟨cp, rng', h, h'⟩ := QuadEqu.cap (e := e) (sch := sch) (rng := rng) hx hy hdims hu hv
  obtain ⟨b, hb, hb'⟩ := h' sch'
  exact ⟨cp, rng', b, h, hb, hb'.trans (hc.tQuad_inj he h0 hu hv).eq_iff⟩

/-- The hypotheses of C09 hold for a witness that does not satisfy the equation, which is then rejected. -/
example (sch : Nat → Scheduler) (sch' : Scheduler) :
    ∃ cp rng', Ex.quad7.commitAndProve sch [0] [0, 0] Ex.crs7 0 = .ok (cp, rng') ∧
      Ex.quad7.verify Ex.e7 sch' cp Ex.crs7 = .ok false := by
  obtain ⟨cp, r, b, h1, h2, h3⟩ := C09_quad Ex.e7 Ex.prime7 Ex.quad7 [0] [0, 0] Ex.crs7 (0 : Nat) sch sch'
    (by simp) (by simp) Ex.quad7_dims Ex.crs7_generated Ex.crs7_nonzero
  cases b
  · exact ⟨cp, r, h1, h2⟩
  · exact absurd (h3.mp rfl) Ex.quad7_fails

example (sch : Nat → Scheduler) (sch' : Scheduler) :
    ∃ cp rng', Ex.ppe7.commitAndProve sch [0] [0, 0] Ex.crs7 0 = .ok (cp, rng') ∧
      Ex.ppe7.verify Ex.e7 sch' cp Ex.crs7 = .ok false := by
  obtain ⟨cp, r, b, h1, h2, h3⟩ := C09_ppe Ex.e7 Ex.ppe7 [0] [0, 0] Ex.crs7 (0 : Nat) sch sch'
    (by simp) (by simp) Ex.ppe7_dims rfl rfl
  cases b
  · exact ⟨cp, r, h1, h2⟩
  · exact absurd (h3.mp rfl) Ex.ppe7_fails

example (sch : Nat → Scheduler) (sch' : Scheduler) :
    ∃ cp rng', Ex.msm1_7.commitAndProve sch [0] [0, 0] Ex.crs7 0 = .ok (cp, rng') ∧
      Ex.msm1_7.verify Ex.e7 sch' cp Ex.crs7 = .ok false := by
  obtain ⟨cp, r, b, h1, h2, h3⟩ := C09_msmeg1 Ex.e7 Ex.prime7 Ex.msm1_7 [0] [0, 0] Ex.crs7 (0 : Nat) sch sch'
    (by simp) (by simp) Ex.msm1_7_dims Ex.crs7_generated Ex.crs7_nonzero
  cases b
  · exact ⟨cp, r, h1, h2⟩
  · exact absurd (h3.mp rfl) Ex.msm1_7_fails

example (sch : Nat → Scheduler) (sch' : Scheduler) :
    ∃ cp rng', Ex.msm2_7.commitAndProve sch [0] [0, 0] Ex.crs7 0 = .ok (cp, rng') ∧
      Ex.msm2_7.verify Ex.e7 sch' cp Ex.crs7 = .ok false := by
  obtain ⟨cp, r, b, h1, h2, h3⟩ := C09_msmeg2 Ex.e7 Ex.prime7 Ex.msm2_7 [0] [0, 0] Ex.crs7 (0 : Nat) sch sch'
    (by simp) (by simp) Ex.msm2_7_dims Ex.crs7_generated Ex.crs7_nonzero
  cases b
  · exact ⟨cp, r, h1, h2⟩
  · exact absurd (h3.mp rfl) Ex.msm2_7_fails

/-! ### Instances -/

namespace Ex

example (sch : Nat → Scheduler) (sch' : Scheduler) :=
  C01_ppe_complete_generated e7 ppe7 [2] [3, 4] (1 : Nat) (0 : Nat) sch sch' (by simp) (by simp) ppe7_dims ppe7_holds
example (sch : Nat → Scheduler) (sch' : Scheduler) :=
  C02_msmeg1_complete_generated e7 msm1_7 [2] [3, 4] (1 : Nat) (0 : Nat) sch sch' (by simp) (by simp) msm1_7_dims msm1_7_holds
example (sch : Nat → Scheduler) (sch' : Scheduler) :=
  C03_msmeg2_complete_generated e7 msm2_7 [2] [3, 4] (1 : Nat) (0 : Nat) sch sch' (by simp) (by simp) msm2_7_dims msm2_7_holds
example (sch : Nat → Scheduler) (sch' : Scheduler) :=
  C04_quad_complete_generated e7 quad7 [2] [3, 4] (1 : Nat) (0 : Nat) sch sch' (by simp) (by simp) quad7_dims quad7_holds

end Ex

end GS
