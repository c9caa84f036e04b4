import Verif.Props.Degenerate
import Verif.Props.Sxdh

/-!
# C76: how often generate_crs returns a sound CRS

By C49 an output of `generate_crs` is sound exactly if both sampled generators are nonzero. For uniform draws this
happens with probability `(1 - 1/|G1|) (1 - 1/|G2|)`; so an attacker, however powerful, who sees the CRS before choosing
statement and proof, succeeds with probability at most `1/|G1| + 1/|G2|`.
-/

set_option linter.unusedSectionVars false
open scoped BigOperators Classical

namespace GS
variable {F G1 G2 GT : Type} [Field F] [AddCommGroup G1] [Module F G1] [AddCommGroup G2] [Module F G2]
  [AddCommGroup GT] [Module F GT]

/-- No false statement has an accepted proof. -/
def SoundCrs [DecidableEq GT] (e : G1 →ₗ[F] G2 →ₗ[F] GT) (crs : CRS G1 G2 GT) : Prop :=
  (∀ (equ : PPE F G1 G2 GT) cp sch, equ.verify e sch cp crs = .ok true → ∃ x y, equ.Holds e x y) ∧
  (∀ (equ : MSMEG1 F G1) cp sch, equ.verify e sch cp crs = .ok true → ∃ x y, equ.Holds x y) ∧
  (∀ (equ : MSMEG2 F G2) cp sch, equ.verify e sch cp crs = .ok true → ∃ x y, equ.Holds x y) ∧
  (∀ (equ : QuadEqu F) cp sch, equ.verify e sch cp crs = .ok true → ∃ x y, equ.Holds x y)

variable [DecidableEq GT] {e : G1 →ₗ[F] G2 →ₗ[F] GT}

theorem soundCrs_iff (he : PrimeGroups e) {crs : CRS G1 G2 GT} (hc : GeneratedCrs e crs) :
    SoundCrs e crs ↔ crs.NonzeroGens := by
  constructor
  · intro h
    exact (C49_sound_iff_nonzero e he crs hc).mp h.2.2.2
  · intro h0
    refine ⟨?_, ?_, ?_, ?_⟩ <;> intro equ cp sch h
    · obtain ⟨x, y, -, -, hh⟩ := C05_ppe_sound e he crs hc h0 equ cp sch h; exact ⟨x, y, hh⟩
    · obtain ⟨x, y, -, -, hh⟩ := C06_msmeg1_sound e he crs hc h0 equ cp sch h; exact ⟨x, y, hh⟩
    · obtain ⟨x, y, -, -, hh⟩ := C07_msmeg2_sound e he crs hc h0 equ cp sch h; exact ⟨x, y, hh⟩
    · obtain ⟨x, y, -, -, hh⟩ := C08_quad_sound e he crs hc h0 equ cp sch h; exact ⟨x, y, hh⟩

variable [Fintype F] [Fintype G1] [Fintype G2]

theorem expect_nonzero_indicator {G : Type} [AddCommGroup G] [Fintype G] :
    (𝔼 p : G, if p ≠ 0 then (1 : ℝ) else 0) = 1 - 1 / Fintype.card G := by
  rw [← expect_zero_indicator, ← Fintype.expect_const (ι := G) (1 : ℝ), ← Finset.expect_sub_distrib]
  refine Finset.expect_congr rfl fun p _ => ?_
  by_cases h : p = 0 <;> simp [h]

/-- C76: the probability that `generate_crs` returns a sound CRS. -/
theorem C76_sound_probability (he : PrimeGroups e) :
    bindingGame e (fun crs => if SoundCrs e crs then 1 else 0) =
      (1 - 1 / Fintype.card G1) * (1 - 1 / Fintype.card G2) := by
  have h : ∀ (p1 : G1) (p2 : G2) (a1 a2 t1 t2 : F),
      (if SoundCrs e (generateCrs e ([p1], [p2], [a1, a2, t1, t2])).1 then (1 : ℝ) else 0) =
        (if p1 ≠ 0 then 1 else 0) * (if p2 ≠ 0 then 1 else 0) := by
    intro p1 p2 a1 a2 t1 t2
    have hs := soundCrs_iff he (crs := (generateCrs e ([p1], [p2], [a1, a2, t1, t2])).1) ⟨_, _, _, rfl⟩
    have hz : (generateCrs e ([p1], [p2], [a1, a2, t1, t2])).1.NonzeroGens ↔ p1 ≠ 0 ∧ p2 ≠ 0 :=
      ⟨fun h => ⟨h.1, h.2⟩, fun h => ⟨h.1, h.2⟩⟩
    rw [hs, hz]
    by_cases h1 : p1 = 0 <;> by_cases h2 : p2 = 0 <;> simp [h1, h2]
  simp only [bindingGame, h, Fintype.expect_const, ← Finset.mul_expect, ← Finset.expect_mul, expect_nonzero_indicator]

/-- What `generate_crs` returns is unsound with the complementary probability. -/
theorem unsound_probability (he : PrimeGroups e) :
    bindingGame e (fun crs => if SoundCrs e crs then 0 else 1) =
      1 - (1 - 1 / Fintype.card G1) * (1 - 1 / Fintype.card G2) := by
  rw [← C76_sound_probability he]
  have h : ∀ crs : CRS G1 G2 GT, (if SoundCrs e crs then (0 : ℝ) else 1) = 1 - if SoundCrs e crs then 1 else 0 := by
    intro crs; split_ifs <;> simp
  simp only [bindingGame, h, Finset.expect_sub_distrib, Fintype.expect_const]

theorem bindingGame_mono {D D' : CRS G1 G2 GT → ℝ} (h : ∀ crs, D crs ≤ D' crs) : bindingGame e D ≤ bindingGame e D' := by
  unfold bindingGame
  refine Finset.expect_le_expect fun _ _ => Finset.expect_le_expect fun _ _ => Finset.expect_le_expect fun _ _ =>
    Finset.expect_le_expect fun _ _ => Finset.expect_le_expect fun _ _ => Finset.expect_le_expect fun _ _ => h _

theorem fooled_le (he : PrimeGroups e) (bad : CRS G1 G2 GT → Prop) [DecidablePred bad] (h : ∀ crs, bad crs → ¬ SoundCrs e crs) :
    bindingGame e (fun crs => if bad crs then 1 else 0) ≤ 1 / Fintype.card G1 + 1 / Fintype.card G2 := by
  have h1 : bindingGame e (fun crs => if bad crs then 1 else 0) ≤
      bindingGame e (fun crs => if SoundCrs e crs then 0 else 1) := by
    refine bindingGame_mono fun crs => ?_
    by_cases hb : bad crs
    · rw [if_pos hb, if_neg (h crs hb)]
    · rw [if_neg hb]; split_ifs <;> simp
  rw [unsound_probability he] at h1
  have k1 : (0 : ℝ) ≤ 1 / Fintype.card G1 := by positivity
  have k2 : (0 : ℝ) ≤ 1 / Fintype.card G2 := by positivity
  nlinarith [mul_nonneg k1 k2]

/-- C76: an attacker who chooses a false equation and a proof after seeing the CRS makes `verify` return true with
probability at most `1/|G1| + 1/|G2|`. -/
theorem C76_adaptive_soundness (he : PrimeGroups e) :
    (∀ A : CRS G1 G2 GT → PPE F G1 G2 GT × CProof F G1 G2 × Scheduler,
      bindingGame e (fun crs => if (A crs).1.verify e (A crs).2.2 (A crs).2.1 crs = .ok true ∧
        ¬ ∃ x y, (A crs).1.Holds e x y then 1 else 0) ≤ 1 / Fintype.card G1 + 1 / Fintype.card G2) ∧
    (∀ A : CRS G1 G2 GT → MSMEG1 F G1 × CProof F G1 G2 × Scheduler,
      bindingGame e (fun crs => if (A crs).1.verify e (A crs).2.2 (A crs).2.1 crs = .ok true ∧
        ¬ ∃ x y, (A crs).1.Holds x y then 1 else 0) ≤ 1 / Fintype.card G1 + 1 / Fintype.card G2) ∧
    (∀ A : CRS G1 G2 GT → MSMEG2 F G2 × CProof F G1 G2 × Scheduler,
      bindingGame e (fun crs => if (A crs).1.verify e (A crs).2.2 (A crs).2.1 crs = .ok true ∧
        ¬ ∃ x y, (A crs).1.Holds x y then 1 else 0) ≤ 1 / Fintype.card G1 + 1 / Fintype.card G2) ∧
    (∀ A : CRS G1 G2 GT → QuadEqu F × CProof F G1 G2 × Scheduler,
      bindingGame e (fun crs => if (A crs).1.verify e (A crs).2.2 (A crs).2.1 crs = .ok true ∧
        ¬ ∃ x y, (A crs).1.Holds x y then 1 else 0) ≤ 1 / Fintype.card G1 + 1 / Fintype.card G2) := by
  exact ⟨fun A => fooled_le he _ fun _ hb hs => hb.2 (hs.1 _ _ _ hb.1),
    fun A => fooled_le he _ fun _ hb hs => hb.2 (hs.2.1 _ _ _ hb.1),
    fun A => fooled_le he _ fun _ hb hs => hb.2 (hs.2.2.1 _ _ _ hb.1),
    fun A => fooled_le he _ fun _ hb hs => hb.2 (hs.2.2.2 _ _ _ hb.1)⟩

/-- C76: the probability is reached: some attacker with a fixed false equation succeeds whenever the CRS is unsound. -/
theorem C76_tight (he : PrimeGroups e) :
    ∃ (equ : QuadEqu F) (A : CRS G1 G2 GT → CProof F G1 G2), (¬ ∃ x y, equ.Holds x y) ∧
      bindingGame e (fun crs => if equ.verify e seqSched (A crs) crs = .ok true then 1 else 0) =
        1 - (1 - 1 / Fintype.card G1) * (1 - 1 / Fintype.card G2) := by
  have hne : Nonempty (CProof F G1 G2) := ⟨⟨⟨[], []⟩, ⟨[], []⟩, []⟩⟩
  refine ⟨falseQuad, fun crs => Classical.epsilon fun cp => (falseQuad : QuadEqu F).verify e seqSched cp crs = .ok true,
    fun ⟨x, y, h⟩ => falseQuad_unsat x y h, ?_⟩
  rw [← unsound_probability he]
  have h : ∀ (p1 : G1) (p2 : G2) (a1 a2 t1 t2 : F), ∀ crs, crs = (generateCrs e ([p1], [p2], [a1, a2, t1, t2])).1 →
      (if (falseQuad : QuadEqu F).verify e seqSched (Classical.epsilon fun cp =>
        (falseQuad : QuadEqu F).verify e seqSched cp crs = .ok true) crs = .ok true then (1 : ℝ) else 0) =
      if SoundCrs e crs then 0 else 1 := by
    intro p1 p2 a1 a2 t1 t2 crs hcrs
    have hc : GeneratedCrs e crs := ⟨_, _, _, hcrs⟩
    by_cases hs : SoundCrs e crs
    · rw [if_pos hs, if_neg]
      intro hv
      obtain ⟨x, y, hxy⟩ := hs.2.2.2 _ _ _ hv
      exact falseQuad_unsat x y hxy
    · rw [if_neg hs, if_pos]
      have h0 : crs.g1_gen = 0 ∨ crs.g2_gen = 0 := by
        by_contra h'
        exact hs ((soundCrs_iff he hc).mpr (not_or.mp h'))
      let _ : Rng (Nat → F) F G1 G2 := fixedRng 0 0
      obtain ⟨cp, _, _, hv⟩ := C49_zero_generator_accepts_false e crs hc h0 (0 : F) 0 (fun _ => 0 : Nat → F)
        (fun _ => seqSched) seqSched
      exact Classical.epsilon_spec (p := fun cp => (falseQuad : QuadEqu F).verify e seqSched cp crs = .ok true) ⟨cp, hv⟩
  unfold bindingGame
  refine Finset.expect_congr rfl fun p1 _ => Finset.expect_congr rfl fun p2 _ => Finset.expect_congr rfl fun a1 _ =>
    Finset.expect_congr rfl fun a2 _ => Finset.expect_congr rfl fun t1 _ => Finset.expect_congr rfl fun t2 _ => ?_
  exact h p1 p2 a1 a2 t1 t2 _ rfl

/-- In the small instance a generated CRS is sound with probability 36/49. -/
example : bindingGame Ex.e7 (fun crs => if SoundCrs Ex.e7 crs then 1 else 0) = 36 / 49 := by
  rw [C76_sound_probability Ex.prime7]
  simp only [Ex.K, ZMod.card]
  norm_num

/-! ### Instances -/

namespace Ex

example := C76_adaptive_soundness prime7
example := C76_tight prime7

end Ex

end GS
