import Verif.Props.Soundness

/-!
# C49: which generated CRS are sound

`generate_crs` (src/generator.rs:86-87) uses whatever group elements the RNG returns as generators.
If one of them is the neutral element, proofs of false scalar statements are accepted.
-/

set_option linter.unusedSectionVars false

namespace GS
variable {F G1 G2 GT : Type} [Field F] [AddCommGroup G1] [Module F G1] [AddCommGroup G2] [Module F G2]
  [AddCommGroup GT] [Module F GT]

/-- A quadratic equation, `0 + 0 + 0 = 1` in one variable on each side, that no assignment satisfies. -/
def falseQuad : QuadEqu F := ⟨[0], [0], [[0]], 1⟩

theorem falseQuad_unsat (x y : List F) : ¬ (falseQuad : QuadEqu F).Holds x y := by
  intro h
  simp only [QuadEqu.Holds, equLhs, falseQuad] at h
  rcases x with _ | ⟨x, xs⟩ <;> rcases y with _ | ⟨y, ys⟩ <;> simp at h

variable [DecidableEq GT]

/-- C49: if a generator is zero, the proof that the prover itself produces for the unsatisfiable equation, from
any "witness", is accepted. -/
theorem C49_zero_generator_accepts_false (e : G1 →ₗ[F] G2 →ₗ[F] GT) (crs : CRS G1 G2 GT) (hc : GeneratedCrs e crs)
    (h0 : crs.g1_gen = 0 ∨ crs.g2_gen = 0) {ρ : Type} [Rng ρ F G1 G2] (x y : F) (rng : ρ)
    (sch : Nat → Scheduler) (sch' : Scheduler) :
    ∃ cp rng', (falseQuad : QuadEqu F).commitAndProve sch [x] [y] crs rng = .ok (cp, rng') ∧
      (falseQuad : QuadEqu F).verify e sch' cp crs = .ok true := by
  obtain ⟨a1, t1, a2, t2, hb⟩ := hc.binding
  obtain ⟨cp, rng', h, h'⟩ := QuadEqu.cap (e := e) (sch := sch) (rng := rng) (equ := falseQuad) (x := [x]) (y := [y])
    (by simp) (by simp) (by constructor <;> simp [falseQuad]) hb.u hb.v
  obtain ⟨b, hb1, hb2⟩ := h' sch'
  refine ⟨cp, rng', h, ?_⟩
  have : b = true := by
    rw [hb2]
    have hz : ∀ z : F, tQuad e ((⟨t1 • crs.g1_gen, t1 • a1 • crs.g1_gen⟩ : Com G1) + ⟨0, crs.g1_gen⟩)
        ((⟨t2 • crs.g2_gen, t2 • a2 • crs.g2_gen⟩ : Com G2) + ⟨0, crs.g2_gen⟩) z = 0 := by
      intro z
      change z • ComT.pairing e _ _ = 0
      rcases h0 with h0 | h0 <;> ext <;> simp [ComT.pairing, h0]
    rw [hz, hz]
  rw [this] at hb1; exact hb1

/-- C49: the same for multi-scalar multiplication equations in `G1` when the second generator is zero. -/
theorem C49_zero_g2_accepts_any_msmeg1 (e : G1 →ₗ[F] G2 →ₗ[F] GT) (crs : CRS G1 G2 GT) (hc : GeneratedCrs e crs)
    (h0 : crs.g2_gen = 0) {ρ : Type} [Rng ρ F G1 G2] (equ : MSMEG1 F G1) (x : List G1) (y : List F) (rng : ρ)
    (hx : x ≠ []) (hy : y ≠ []) (hd : equ.Dims x.length y.length) (sch : Nat → Scheduler) (sch' : Scheduler) :
    ∃ cp rng', equ.commitAndProve sch x y crs rng = .ok (cp, rng') ∧ equ.verify e sch' cp crs = .ok true := by
  obtain ⟨a1, t1, a2, t2, hb⟩ := hc.binding
  obtain ⟨cp, rng', h, h'⟩ := MSMEG1.cap (e := e) (sch := sch) (rng := rng) hx hy hd hc.length_u hb.v
  obtain ⟨b, hb1, hb2⟩ := h' sch'
  refine ⟨cp, rng', h, ?_⟩
  have : b = true := by
    rw [hb2]
    have hz : ∀ z : G1, tMSMEG1 e ((⟨t2 • crs.g2_gen, t2 • a2 • crs.g2_gen⟩ : Com G2) + ⟨0, crs.g2_gen⟩) z = 0 := by
      intro z
      change ComT.pairing e _ _ = 0
      ext <;> simp [ComT.pairing, h0]
    rw [hz, hz]
  rw [this] at hb1; exact hb1

/-- C49: the same for multi-scalar multiplication equations in `G2` when the first generator is zero. -/
theorem C49_zero_g1_accepts_any_msmeg2 (e : G1 →ₗ[F] G2 →ₗ[F] GT) (crs : CRS G1 G2 GT) (hc : GeneratedCrs e crs)
    (h0 : crs.g1_gen = 0) {ρ : Type} [Rng ρ F G1 G2] (equ : MSMEG2 F G2) (x : List F) (y : List G2) (rng : ρ)
    (hx : x ≠ []) (hy : y ≠ []) (hd : equ.Dims x.length y.length) (sch : Nat → Scheduler) (sch' : Scheduler) :
    ∃ cp rng', equ.commitAndProve sch x y crs rng = .ok (cp, rng') ∧ equ.verify e sch' cp crs = .ok true := by
  obtain ⟨a1, t1, a2, t2, hb⟩ := hc.binding
  obtain ⟨cp, rng', h, h'⟩ := MSMEG2.cap (e := e) (sch := sch) (rng := rng) hx hy hd hb.u hc.length_v
  obtain ⟨b, hb1, hb2⟩ := h' sch'
  refine ⟨cp, rng', h, ?_⟩
  have : b = true := by
    rw [hb2]
    have hz : ∀ z : G2, tMSMEG2 e ((⟨t1 • crs.g1_gen, t1 • a1 • crs.g1_gen⟩ : Com G1) + ⟨0, crs.g1_gen⟩) z = 0 := by
      intro z
      change ComT.pairing e _ _ = 0
      ext <;> simp [ComT.pairing, h0]
    rw [hz, hz]
  rw [this] at hb1; exact hb1

/-- C49: a generated CRS is sound for quadratic equations exactly when both generators are nonzero. -/
theorem C49_sound_iff_nonzero (e : G1 →ₗ[F] G2 →ₗ[F] GT) (he : PrimeGroups e) (crs : CRS G1 G2 GT)
    (hc : GeneratedCrs e crs) :
    (∀ (equ : QuadEqu F) (cp : CProof F G1 G2) (sch : Scheduler), equ.verify e sch cp crs = .ok true →
      ∃ x y, equ.Holds x y) ↔ crs.NonzeroGens := by
  constructor
  · intro h
    by_contra hn
    have h0 : crs.g1_gen = 0 ∨ crs.g2_gen = 0 := by
      by_contra h'; exact hn (not_or.mp h')
    let _ : Rng (Nat → F) F G1 G2 := fixedRng 0 0
    obtain ⟨cp, _, _, hv⟩ := C49_zero_generator_accepts_false e crs hc h0 (0 : F) 0 (fun _ => 0 : Nat → F)
      (fun _ => seqSched) seqSched
    obtain ⟨x, y, hxy⟩ := h _ _ _ hv
    exact falseQuad_unsat x y hxy
  · intro h0 equ cp sch h
    obtain ⟨x, y, -, -, h⟩ := C08_quad_sound e he crs hc h0 equ cp sch h
    exact ⟨x, y, h⟩

example : ∀ (equ : QuadEqu Ex.K) (cp : CProof Ex.K Ex.K Ex.K) (sch : Scheduler), equ.verify Ex.e7 sch cp Ex.crs7 = .ok true →
    ∃ x y, equ.Holds x y :=
  (C49_sound_iff_nonzero Ex.e7 Ex.prime7 Ex.crs7 Ex.crs7_generated).mpr Ex.crs7_nonzero

/-- C49: scalar commitments in B1 are binding exactly when the first generator is nonzero. -/
theorem C49_scalar_binding_B1_iff (e : G1 →ₗ[F] G2 →ₗ[F] GT) (crs : CRS G1 G2 GT) (hc : GeneratedCrs e crs) :
    (∀ (c : Com G1) (x x' : F), CanOpenScalar crs.u crs.g1_gen c x → CanOpenScalar crs.u crs.g1_gen c x' → x = x') ↔
      crs.g1_gen ≠ 0 := by
  obtain ⟨a1, t1, a2, t2, hb⟩ := hc.binding
  constructor
  · intro h h0
    refine zero_ne_one (h 0 0 1 ⟨_, _, _, hb.u, 0, ?_⟩ ⟨_, _, _, hb.u, 0, ?_⟩) <;>
      ext <;> simp [scalarCom, h0]
  · rintro h0 c x x' ⟨u0, u1, u', hu, r, h⟩ ⟨u0', u1', u'', hu', r', h'⟩
    rw [hb.u] at hu hu'; cases hu; cases hu'
    have := congrArg (proj a1) (h.symm.trans h')
    simp only [scalarCom, map_add, map_smul, proj_lin, proj_key0, proj_key1, zero_add, smul_zero, add_zero] at this
    exact smul_left_injective F h0 this

/-- C49: scalar commitments in B2 are binding exactly when the second generator is nonzero. -/
theorem C49_scalar_binding_B2_iff (e : G1 →ₗ[F] G2 →ₗ[F] GT) (crs : CRS G1 G2 GT) (hc : GeneratedCrs e crs) :
    (∀ (c : Com G2) (x x' : F), CanOpenScalar crs.v crs.g2_gen c x → CanOpenScalar crs.v crs.g2_gen c x' → x = x') ↔
      crs.g2_gen ≠ 0 := by
  obtain ⟨a1, t1, a2, t2, hb⟩ := hc.binding
  constructor
  · intro h h0
    refine zero_ne_one (h 0 0 1 ⟨_, _, _, hb.v, 0, ?_⟩ ⟨_, _, _, hb.v, 0, ?_⟩) <;>
      ext <;> simp [scalarCom, h0]
  · rintro h0 c x x' ⟨u0, u1, u', hu, r, h⟩ ⟨u0', u1', u'', hu', r', h'⟩
    rw [hb.v] at hu hu'; cases hu; cases hu'
    have := congrArg (proj a2) (h.symm.trans h')
    simp only [scalarCom, map_add, map_smul, proj_lin, proj_key0, proj_key1, zero_add, smul_zero, add_zero] at this
    exact smul_left_injective F h0 this

/-- C49: not every generated CRS is sound (over every bilinear group, the RNG may return zero). -/
theorem C49_not_every_crs_sound (e : G1 →ₗ[F] G2 →ₗ[F] GT) :
    ∃ (crs : CRS G1 G2 GT) (equ : QuadEqu F) (cp : CProof F G1 G2), GeneratedCrs e crs ∧
      equ.verify e seqSched cp crs = .ok true ∧ ∀ x y, ¬ equ.Holds x y := by
  let _ : Rng (Nat → F) F G1 G2 := fixedRng 0 0
  have hc : GeneratedCrs e (generateCrs e (fun _ => 0 : Nat → F)).1 := ⟨_, _, _, rfl⟩
  obtain ⟨cp, _, _, hv⟩ := C49_zero_generator_accepts_false e _ hc (.inl rfl) (0 : F) 0 (fun _ => 0 : Nat → F)
    (fun _ => seqSched) seqSched
  exact ⟨_, falseQuad, cp, hc, hv, falseQuad_unsat⟩

/-! ### Instances -/

namespace Ex

/-- A generator that returns zero as first group element. -/
def crs7_g1_zero : CRS K K K := (generateCrs e7 (0 : Nat)).1
/-- A generator that returns zero as second group element. -/
def crs7_g2_zero : CRS K K K := (generateCrs e7 (6 : Nat)).1

theorem crs7_g1_zero_generated : GeneratedCrs e7 crs7_g1_zero := ⟨Nat, _, 0, rfl⟩
theorem crs7_g2_zero_generated : GeneratedCrs e7 crs7_g2_zero := ⟨Nat, _, 6, rfl⟩

example : crs7_g1_zero.g1_gen = 0 ∧ crs7_g1_zero.g2_gen ≠ 0 ∧ crs7_g2_zero.g1_gen ≠ 0 ∧ crs7_g2_zero.g2_gen = 0 := by decide

example (sch : Nat → Scheduler) := C49_zero_generator_accepts_false e7 crs7_g1_zero crs7_g1_zero_generated (.inl rfl) (3 : K) 4 (1 : Nat) sch
example (sch : Nat → Scheduler) := C49_zero_generator_accepts_false e7 crs7_g2_zero crs7_g2_zero_generated (.inr (by decide)) (3 : K) 4 (1 : Nat) sch
/-- `msm1_7` is false for these values. -/
example (sch : Nat → Scheduler) := C49_zero_g2_accepts_any_msmeg1 e7 crs7_g2_zero crs7_g2_zero_generated (by decide)
  msm1_7 [0] [0, 0] (1 : Nat) (by simp) (by simp) msm1_7_dims sch
example : ¬ msm1_7.Holds [0] [0, 0] := msm1_7_fails

/-- `msm2_7` is false for these values. -/
example (sch : Nat → Scheduler) := C49_zero_g1_accepts_any_msmeg2 e7 crs7_g1_zero crs7_g1_zero_generated (by decide)
  msm2_7 [0] [0, 0] (1 : Nat) (by simp) (by simp) msm2_7_dims sch
example : ¬ msm2_7.Holds [0] [0, 0] := msm2_7_fails

example := (C49_scalar_binding_B1_iff e7 crs7 crs7_generated).mpr crs7_nonzero.1
example := (C49_scalar_binding_B2_iff e7 crs7 crs7_generated).mpr crs7_nonzero.2
example := mt (C49_scalar_binding_B1_iff e7 crs7_g1_zero crs7_g1_zero_generated).mp (by decide)
example := mt (C49_scalar_binding_B2_iff e7 crs7_g2_zero crs7_g2_zero_generated).mp (by decide)

end Ex

end GS
