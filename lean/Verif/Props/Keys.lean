import Verif.Lemmas.Hiding
import Verif.Props.Example

/-!
# Shape of the CRS (C34) and the two kinds of key (C35)
-/

set_option linter.unusedSectionVars false

namespace GS
variable {F G1 G2 GT : Type} [Field F] [AddCommGroup G1] [Module F G1]
  [AddCommGroup G2] [Module F G2] [AddCommGroup GT] [Module F GT]

/-- Draws, in order, and result of `generate_crs`. -/
theorem C34_generate_crs {ρ : Type} [Rng ρ F G1 G2] (e : G1 →ₗ[F] G2 →ₗ[F] GT) (s0 : ρ) :
    ∃ (g1 : G1) (g2 : G2) (a1 a2 t1 t2 : F) (s1 s2 s3 s4 s5 s6 : ρ),
      Rng.randG1 F G2 s0 = (g1, s1) ∧ Rng.randG2 F G1 s1 = (g2, s2) ∧
      Rng.randF G1 G2 s2 = (a1, s3) ∧ Rng.randF G1 G2 s3 = (a2, s4) ∧
      Rng.randF G1 G2 s4 = (t1, s5) ∧ Rng.randF G1 G2 s5 = (t2, s6) ∧
      generateCrs e s0 =
        ({ u := [⟨g1, a1 • g1⟩, ⟨t1 • g1, (a1 * t1) • g1⟩]
           v := [⟨g2, a2 • g2⟩, ⟨t2 • g2, (a2 * t2) • g2⟩]
           g1_gen := g1
           g2_gen := g2
           gt_gen := e g1 g2 }, s6) := by
  refine ⟨_, _, _, _, _, _, _, _, _, _, _, _, rfl, rfl, rfl, rfl, rfl, rfl, ?_⟩
  simp only [generateCrs, assembleReal_eq, smul_smul, mul_comm]
  rfl

/-- Two-element keys; no `∞` in the first key elements, and `gt_gen` generates, when the generators are nonzero. -/
theorem C34_nonzero {ρ : Type} [Rng ρ F G1 G2] (e : G1 →ₗ[F] G2 →ₗ[F] GT) (he : PrimeGroups e) (rng : ρ)
    (hnz : (generateCrs e rng).1.NonzeroGens) :
    (generateCrs e rng).1.gt_gen ≠ 0 ∧ (∀ c, (generateCrs e rng).1.u[0]? = some c → c ≠ 0) ∧
    (∀ c, (generateCrs e rng).1.v[0]? = some c → c ≠ 0) := by
  refine ⟨?_, ?_, ?_⟩
  · intro h
    rcases he.nondeg _ _ h with h | h
    · exact hnz.1 h
    · exact hnz.2 h
  · rintro c hc rfl
    exact hnz.1 (congrArg Com.c0 (Option.some.inj hc))
  · rintro c hc rfl
    exact hnz.2 (congrArg Com.c0 (Option.some.inj hc))

example : PrimeGroups Ex.e7 ∧ (generateCrs Ex.e7 (1 : Nat)).1.NonzeroGens := ⟨Ex.prime7, Ex.crs7_nonzero⟩

/-! ## C35 -/

/-- In a generated CRS the second key elements are multiples of the first ones. -/
theorem C35_generated_dependent (e : G1 →ₗ[F] G2 →ₗ[F] GT) (crs : CRS G1 G2 GT) (h : GeneratedCrs e crs) :
    (∃ (u : Com G1) (t : F), crs.u = [u, u.scalarMul t]) ∧ ∃ (v : Com G2) (t : F), crs.v = [v, v.scalarMul t] := by
  obtain ⟨a1, t1, a2, t2, hb⟩ := h.binding
  exact ⟨⟨_, t1, hb.u⟩, ⟨_, t2, hb.v⟩⟩

/-- No `(O, x)` with nonzero `x` lies in the span of a generated key (zero generators included). -/
theorem C35_generated_binding (e : G1 →ₗ[F] G2 →ₗ[F] GT) (crs : CRS G1 G2 GT) (h : GeneratedCrs e crs) :
    (∀ u0 u1, crs.u = [u0, u1] → ∀ (r s : F) (x : G1),
      Com1.linearMap x = (u0.scalarMul r).add (u1.scalarMul s) → x = 0) ∧
    (∀ v0 v1, crs.v = [v0, v1] → ∀ (r s : F) (y : G2),
      Com2.linearMap y = (v0.scalarMul r).add (v1.scalarMul s) → y = 0) := by
  obtain ⟨a1, t1, a2, t2, hb⟩ := h.binding
  constructor
  · intro u0 u1 hu r s x hx
    obtain ⟨rfl, rfl⟩ : _ ∧ _ := by simpa [hb.u] using hu
    have h0 : 0 = r • crs.g1_gen + s • t1 • crs.g1_gen := congrArg Com.c0 hx
    have h1 : x = r • a1 • crs.g1_gen + s • t1 • a1 • crs.g1_gen := congrArg Com.c1 hx
    rw [h1, ← smul_zero a1, h0]
    module
  · intro u0 u1 hu r s x hx
    obtain ⟨rfl, rfl⟩ : _ ∧ _ := by simpa [hb.v] using hu
    have h0 : 0 = r • crs.g2_gen + s • t2 • crs.g2_gen := congrArg Com.c0 hx
    have h1 : x = r • a2 • crs.g2_gen + s • t2 • a2 • crs.g2_gen := congrArg Com.c1 hx
    rw [h1, ← smul_zero a2, h0]
    module

/-- In a simulated CRS with nonzero generators every commitment group element is a unique
linear combination of the two key elements. -/
theorem C35_simulated_basis (e : G1 →ₗ[F] G2 →ₗ[F] GT) (he : PrimeGroups e) (crs : CRS G1 G2 GT)
    (h : SimulatedCrs e crs) :
    (crs.g1_gen ≠ 0 → ∃ u0 u1, crs.u = [u0, u1] ∧
      ∀ c, ∃! rs : F × F, c = (u0.scalarMul rs.1).add (u1.scalarMul rs.2)) ∧
    (crs.g2_gen ≠ 0 → ∃ v0 v1, crs.v = [v0, v1] ∧
      ∀ c, ∃! rs : F × F, c = (v0.scalarMul rs.1).add (v1.scalarMul rs.2)) := by
  obtain ⟨p1, p2, a1, a2, t1, t2, rfl⟩ := h
  rw [assembleSim_eq]
  exact ⟨fun hg => ⟨_, _, rfl, hiding_basis hg (he.cyclic1 _ hg) a1 t1⟩,
    fun hg => ⟨_, _, rfl, hiding_basis hg (he.cyclic2 _ hg) a2 t2⟩⟩

/-- For the same draws the two kinds of CRS differ only by the generator in the last component of each key. -/
theorem C35_difference (e : G1 →ₗ[F] G2 →ₗ[F] GT) (p1 : G1) (p2 : G2) (a1 a2 t1 t2 : F) :
    ∃ (u0 u1 : Com G1) (v0 v1 : Com G2),
      assembleCrs e prepareRealBindingKey p1 p2 a1 a2 t1 t2 = ⟨[u0, u1], [v0, v1], p1, p2, e p1 p2⟩ ∧
      assembleCrs e prepareSimulatedHidingKey p1 p2 a1 a2 t1 t2 =
        ⟨[u0, ⟨u1.c0, u1.c1 - p1⟩], [v0, ⟨v1.c0, v1.c1 - p2⟩], p1, p2, e p1 p2⟩ := by
  rw [assembleReal_eq, assembleSim_eq]
  exact ⟨_, _, _, _, rfl, rfl⟩

/-- The two notions are really different: a simulated key with nonzero generator is not binding. -/
theorem C35_disjoint (e : G1 →ₗ[F] G2 →ₗ[F] GT) (crs : CRS G1 G2 GT) (h : GeneratedCrs e crs)
    (h' : SimulatedCrs e crs) : crs.g1_gen = 0 ∧ crs.g2_gen = 0 := by
  obtain ⟨a1, t1, a2, t2, hb⟩ := h.binding
  obtain ⟨p1, p2, b1, b2, s1, s2, rfl⟩ := h'
  have hu := hb.u
  have hv := hb.v
  rw [assembleSim_eq] at hu hv ⊢
  simp only [List.cons.injEq, Com.mk.injEq, true_and, and_true] at hu hv
  constructor
  · obtain ⟨h1, h2, h3⟩ := hu
    rw [h1, smul_comm, h2, smul_comm, sub_eq_self] at h3
    exact h3
  · obtain ⟨h1, h2, h3⟩ := hv
    rw [h1, smul_comm, h2, smul_comm, sub_eq_self] at h3
    exact h3

example : GeneratedCrs Ex.e7 Ex.crs7 ∧ Ex.crs7.g1_gen ≠ 0 ∧ SimulatedCrs Ex.e7 Ex.sim7 ∧ Ex.sim7.g1_gen ≠ 0 :=
  ⟨Ex.crs7_generated, Ex.crs7_nonzero.1, Ex.sim7_simulated, Ex.sim7_nonzero.1⟩

/-! ### Instances -/

namespace Ex

example := C34_nonzero e7 prime7 (1 : Nat) crs7_nonzero
example := C35_generated_dependent e7 crs7 crs7_generated
example := C35_generated_binding e7 crs7 crs7_generated
example := (C35_simulated_basis e7 prime7 sim7 sim7_simulated).1 sim7_nonzero.1
example := (C35_simulated_basis e7 prime7 sim7 sim7_simulated).2 sim7_nonzero.2

/-- The only keys that are both real and simulated have generators zero; there are some. -/
example : ∃ crs : CRS K K K, GeneratedCrs e7 crs ∧ SimulatedCrs e7 crs :=
  ⟨assembleCrs e7 prepareRealBindingKey 0 0 3 4 5 6, generated_iff.mpr ⟨0, 0, 3, 4, 5, 6, rfl⟩, 0, 0, 3, 4, 5, 6, by simp [assembleCrs, prepareRealBindingKey, prepareSimulatedHidingKey]⟩

end Ex

end GS
