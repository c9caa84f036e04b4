import Verif.Lemmas.Crs

/-! Explicit form of a simulated CRS: the two key elements form a basis of the commitment group. -/

set_option linter.unusedSectionVars false

namespace GS
variable {F G G1 G2 GT : Type} [Field F] [AddCommGroup G] [Module F G] [AddCommGroup G1] [Module F G1]
  [AddCommGroup G2] [Module F G2] [AddCommGroup GT] [Module F GT]

/-- The key elements `(g, a g)` and `(t g, t a g - g)` are a basis. -/
theorem hiding_basis {g : G} (hg : g ≠ 0) (hcyc : ∀ x : G, ∃ k : F, x = k • g) (a t : F) (c : Com G) :
    ∃! rs : F × F, c = rs.1 • (⟨g, a • g⟩ : Com G) + rs.2 • (⟨t • g, t • a • g - g⟩ : Com G) := by
  obtain ⟨k0, h0⟩ := hcyc c.c0
  obtain ⟨k1, h1⟩ := hcyc c.c1
  -- r + s t = k0, (r + s t) a - s = k1
  refine ⟨(k0 - (a * k0 - k1) * t, a * k0 - k1), ?_, ?_⟩
  · ext
    · simp only [Com.add_c0, Com.smul_c0, h0]; module
    · simp only [Com.add_c1, Com.smul_c1, h1]; module
  · rintro ⟨r, s⟩ h
    have e0 : c.c0 = r • g + s • t • g := congrArg Com.c0 h
    have e1 : c.c1 = r • a • g + s • (t • a • g - g) := congrArg Com.c1 h
    have f0 : (r + s * t - k0) • g = 0 := by
      rw [sub_smul, ← h0, e0]; module
    have f1 : ((r + s * t) * a - s - k1) • g = 0 := by
      rw [sub_smul, ← h1, e1]; module
    have f0' := sub_eq_zero.mp ((smul_eq_zero.mp f0).resolve_right hg)
    have f1' := sub_eq_zero.mp ((smul_eq_zero.mp f1).resolve_right hg)
    simp only [Prod.mk.injEq]
    rw [f0'] at f1'
    have hs : s = a * k0 - k1 := by rw [← f1']; ring
    exact ⟨by rw [← hs, ← f0']; ring, hs⟩

end GS
