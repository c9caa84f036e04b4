import Verif.Spec.Crs
import Verif.Spec.Equation
import Verif.Lemmas.Honest

/-! Explicit forms of the CRS and injectivity of the target maps under a generated CRS. -/

set_option linter.unusedSectionVars false
set_option linter.unusedVariables false

namespace GS
variable {F G1 G2 GT : Type} [Field F] [AddCommGroup G1] [Module F G1] [AddCommGroup G2] [Module F G2]
  [AddCommGroup GT] [Module F GT]

/-- An RNG returning fixed elements: scalars in sequence. -/
@[instance_reducible]
def fixedRng (p1 : G1) (p2 : G2) : Rng (Nat → F) F G1 G2 where
  randF s := (s 0, fun n => s (n + 1))
  randG1 s := (p1, s)
  randG2 s := (p2, s)

theorem assembleReal_eq (e : G1 →ₗ[F] G2 →ₗ[F] GT) (p1 : G1) (p2 : G2) (a1 a2 t1 t2 : F) :
    assembleCrs e prepareRealBindingKey p1 p2 a1 a2 t1 t2 =
      ⟨[⟨p1, a1 • p1⟩, ⟨t1 • p1, t1 • a1 • p1⟩], [⟨p2, a2 • p2⟩, ⟨t2 • p2, t2 • a2 • p2⟩], p1, p2, e p1 p2⟩ := by
  simp [assembleCrs, prepareRealBindingKey]

theorem assembleSim_eq (e : G1 →ₗ[F] G2 →ₗ[F] GT) (p1 : G1) (p2 : G2) (a1 a2 t1 t2 : F) :
    assembleCrs e prepareSimulatedHidingKey p1 p2 a1 a2 t1 t2 =
      ⟨[⟨p1, a1 • p1⟩, ⟨t1 • p1, t1 • a1 • p1 - p1⟩], [⟨p2, a2 • p2⟩, ⟨t2 • p2, t2 • a2 • p2 - p2⟩], p1, p2,
        e p1 p2⟩ := by
  simp [assembleCrs, prepareSimulatedHidingKey]

theorem generated_iff {e : G1 →ₗ[F] G2 →ₗ[F] GT} {crs : CRS G1 G2 GT} :
    GeneratedCrs e crs ↔ ∃ (p1 : G1) (p2 : G2) (a1 a2 t1 t2 : F),
      crs = assembleCrs e prepareRealBindingKey p1 p2 a1 a2 t1 t2 := by
  constructor
  · rintro ⟨ρ, _, rng, rfl⟩
    exact ⟨_, _, _, _, _, _, rfl⟩
  · rintro ⟨p1, p2, a1, a2, t1, t2, rfl⟩
    refine ⟨_, fixedRng (F := F) p1 p2, fun n => if n = 0 then a1 else if n = 1 then a2 else if n = 2 then t1 else t2, ?_⟩
    rfl

/-- Explicit form of a generated CRS. -/
structure Binding (e : G1 →ₗ[F] G2 →ₗ[F] GT) (crs : CRS G1 G2 GT) (a1 t1 a2 t2 : F) : Prop where
  u : crs.u = [⟨crs.g1_gen, a1 • crs.g1_gen⟩, ⟨t1 • crs.g1_gen, t1 • a1 • crs.g1_gen⟩]
  v : crs.v = [⟨crs.g2_gen, a2 • crs.g2_gen⟩, ⟨t2 • crs.g2_gen, t2 • a2 • crs.g2_gen⟩]

theorem GeneratedCrs.binding {e : G1 →ₗ[F] G2 →ₗ[F] GT} {crs : CRS G1 G2 GT} (h : GeneratedCrs e crs) :
    ∃ a1 t1 a2 t2, Binding e crs a1 t1 a2 t2 := by
  obtain ⟨p1, p2, a1, a2, t1, t2, rfl⟩ := generated_iff.mp h
  refine ⟨a1, t1, a2, t2, ?_, ?_⟩ <;> rw [assembleReal_eq]

theorem GeneratedCrs.length_u {e : G1 →ₗ[F] G2 →ₗ[F] GT} {crs : CRS G1 G2 GT} (h : GeneratedCrs e crs) :
    crs.u.length = 2 := by obtain ⟨_, _, _, _, h⟩ := h.binding; rw [h.u]; rfl
theorem GeneratedCrs.length_v {e : G1 →ₗ[F] G2 →ₗ[F] GT} {crs : CRS G1 G2 GT} (h : GeneratedCrs e crs) :
    crs.v.length = 2 := by obtain ⟨_, _, _, _, h⟩ := h.binding; rw [h.v]; rfl

theorem smul_pair_zero {z : GT} {t s : F} (h1 : t • z = 0) (h2 : (t * s + 1) • z = 0) : z = 0 := by
  rw [add_smul, one_smul, mul_comm, mul_smul, h1, smul_zero, zero_add] at h2
  exact h2

variable {e : G1 →ₗ[F] G2 →ₗ[F] GT} {crs : CRS G1 G2 GT}

theorem tMSMEG1_inj (he : PrimeGroups e) {g : G2} (hg : g ≠ 0) (a t : F) :
    Function.Injective (tMSMEG1 e (⟨t • g, t • a • g⟩ + ⟨0, g⟩ : Com G2)) := by
  rw [← LinearMap.ker_eq_bot, LinearMap.ker_eq_bot']
  intro z hz
  have h2 : e z (t • g + 0) = 0 := congrArg ComT.t2 hz
  have h3 : e z (t • a • g + g) = 0 := congrArg ComT.t3 hz
  simp only [add_zero, map_smul, map_add] at h2 h3
  have : e z g = 0 := smul_pair_zero (t := t) (s := a) h2 (by rw [add_smul, mul_smul, one_smul]; exact h3)
  exact (he.nondeg _ _ this).resolve_right hg

theorem tMSMEG2_inj (he : PrimeGroups e) {g : G1} (hg : g ≠ 0) (a t : F) :
    Function.Injective (tMSMEG2 e (⟨t • g, t • a • g⟩ + ⟨0, g⟩ : Com G1)) := by
  rw [← LinearMap.ker_eq_bot, LinearMap.ker_eq_bot']
  intro z hz
  have h2 : e (t • g + 0) z = 0 := congrArg ComT.t1 hz
  have h3 : e (t • a • g + g) z = 0 := congrArg ComT.t3 hz
  simp only [add_zero, map_smul, map_add, LinearMap.add_apply, LinearMap.smul_apply] at h2 h3
  have : e g z = 0 := smul_pair_zero (t := t) (s := a) h2 (by rw [add_smul, mul_smul, one_smul]; exact h3)
  exact (he.nondeg _ _ this).resolve_left hg

theorem tQuad_inj (he : PrimeGroups e) {g : G1} {g' : G2} (hg : g ≠ 0) (hg' : g' ≠ 0) (a t a' t' : F) :
    Function.Injective (tQuad e (⟨t • g, t • a • g⟩ + ⟨0, g⟩ : Com G1) (⟨t' • g', t' • a' • g'⟩ + ⟨0, g'⟩ : Com G2)) := by
  rw [← LinearMap.ker_eq_bot, LinearMap.ker_eq_bot']
  intro z hz
  have hz0 : z • e (t • g + 0) (t' • g' + 0) = 0 := congrArg ComT.t0 hz
  have hz1 : z • e (t • g + 0) (t' • a' • g' + g') = 0 := congrArg ComT.t1 hz
  have hz2 : z • e (t • a • g + g) (t' • g' + 0) = 0 := congrArg ComT.t2 hz
  have hz3 : z • e (t • a • g + g) (t' • a' • g' + g') = 0 := congrArg ComT.t3 hz
  simp only [add_zero, map_smul, map_add, LinearMap.add_apply, LinearMap.smul_apply] at hz0 hz1 hz2 hz3
  have k1 : t • z • e g g' = 0 := by
    refine smul_pair_zero (t := t') (s := a') ?_ ?_
    · rw [← hz0]; module
    · rw [← hz1]; module
  have k2 : (t * a + 1) • z • e g g' = 0 := by
    refine smul_pair_zero (t := t') (s := a') ?_ ?_
    · rw [← hz2]; module
    · rw [← hz3]; module
  have k3 := smul_pair_zero k1 k2
  rcases smul_eq_zero.mp k3 with h | h
  · exact h
  · rcases he.nondeg _ _ h with h | h
    · exact absurd h hg
    · exact absurd h hg'

end GS
