import Verif.Spec.Games
import Verif.Lemmas.Crs
import Verif.Lemmas.WI
import Mathlib.Algebra.Order.BigOperators.Expect
import Mathlib.Data.Fintype.Pi

/-! Hybrid argument. -/

set_option linter.unusedSectionVars false

open scoped BigOperators

namespace GS

section ddh
variable {F G : Type} [Field F] [AddCommGroup G] [Module F G] [Fintype F] [Fintype G]

theorem ddhRand_lower (A : G → G → G → G → ℝ) : ddhRand F (lower A) = ddhRand F A := by
  unfold ddhRand lower
  refine Finset.expect_congr rfl fun p _ => Finset.expect_congr rfl fun a _ => Finset.expect_congr rfl fun t _ => ?_
  refine Fintype.expect_equiv (Equiv.subRight (1 : F)) _ _ fun z => ?_
  simp [sub_smul]

theorem ddh_hybrid (A : G → G → G → G → ℝ) :
    |ddhReal F A - ddhReal F (lower A)| ≤ ddhAdv F A + ddhAdv F (lower A) := by
  have h := abs_sub_le (ddhReal F A) (ddhRand F A) (ddhReal F (lower A))
  refine h.trans (add_le_add le_rfl ?_)
  rw [ddhAdv, ddhRand_lower, abs_sub_comm]

end ddh

variable {F G1 G2 GT : Type} [Field F] [AddCommGroup G1] [Module F G1] [AddCommGroup G2] [Module F G2]
  [AddCommGroup GT] [Module F GT] [Fintype F] [Fintype G1] [Fintype G2] {e : G1 →ₗ[F] G2 →ₗ[F] GT}

theorem expect_reorder {P1 P2 A1 A2 T1 T2 : Type} [Fintype P1] [Fintype P2] [Fintype A1] [Fintype A2] [Fintype T1]
    [Fintype T2] (f : P1 → P2 → A1 → A2 → T1 → T2 → ℝ) :
    (𝔼 p1, 𝔼 p2, 𝔼 a1, 𝔼 a2, 𝔼 t1, 𝔼 t2, f p1 p2 a1 a2 t1 t2) =
      𝔼 p1, 𝔼 a1, 𝔼 t1, 𝔼 p2, 𝔼 a2, 𝔼 t2, f p1 p2 a1 a2 t1 t2 := by
  refine Finset.expect_congr rfl fun p1 _ => ?_
  rw [Finset.expect_comm]
  refine Finset.expect_congr rfl fun a1 _ => ?_
  rw [Finset.expect_comm (s := (Finset.univ : Finset T1))]
  refine Finset.expect_congr rfl fun p2 _ => ?_
  rw [Finset.expect_comm]

theorem expect_reorder' {P1 P2 A1 A2 T1 T2 : Type} [Fintype P1] [Fintype P2] [Fintype A1] [Fintype A2] [Fintype T1]
    [Fintype T2] (f : P1 → P2 → A1 → A2 → T1 → T2 → ℝ) :
    (𝔼 p2, 𝔼 a2, 𝔼 t2, 𝔼 p1, 𝔼 a1, 𝔼 t1, f p1 p2 a1 a2 t1 t2) =
      𝔼 p1, 𝔼 a1, 𝔼 t1, 𝔼 p2, 𝔼 a2, 𝔼 t2, f p1 p2 a1 a2 t1 t2 := by
  have : ∀ g : (P2 × A2 × T2) → (P1 × A1 × T1) → ℝ,
      (𝔼 p2, 𝔼 a2, 𝔼 t2, 𝔼 p1, 𝔼 a1, 𝔼 t1, g (p2, a2, t2) (p1, a1, t1)) =
      𝔼 p1, 𝔼 a1, 𝔼 t1, 𝔼 p2, 𝔼 a2, 𝔼 t2, g (p2, a2, t2) (p1, a1, t1) := by
    intro g
    have key := Finset.expect_comm (Finset.univ : Finset (P2 × A2 × T2)) (Finset.univ : Finset (P1 × A1 × T1)) g
    simpa only [← Finset.univ_product_univ, Finset.expect_product] using key
  exact this fun s t => f t.1 s.1 t.2.1 s.2.1 t.2.2 s.2.2

theorem crsGame_binding (D : CRS G1 G2 GT → ℝ) :
    bindingGame e D = ddhReal F (reduce1 e D) := by
  unfold bindingGame ddhReal reduce1
  rw [expect_reorder]
  have h : ∀ (p1 : G1) (p2 : G2) (a1 a2 t1 t2 : F), (generateCrs e ([p1], [p2], [a1, a2, t1, t2])).1 =
      crsOf e p1 (a1 • p1) (t1 • p1) (t1 • a1 • p1) p2 (a2 • p2) (t2 • p2) (t2 • a2 • p2) :=
    fun p1 p2 a1 a2 t1 t2 => assembleReal_eq e p1 p2 a1 a2 t1 t2
  simp only [h]

theorem crsGame_mid (D : CRS G1 G2 GT → ℝ) :
    ddhReal F (lower (reduce1 e D)) = ddhReal F (reduce2 e D) := by
  unfold ddhReal lower reduce1 reduce2
  exact (expect_reorder' (fun p1 p2 a1 a2 t1 t2 => D (crsOf e p1 (a1 • p1) (t1 • p1) (t1 • a1 • p1 - p1) p2 (a2 • p2) (t2 • p2)
    (t2 • a2 • p2)))).symm

theorem crsGame_hiding (D : CRS G1 G2 GT → ℝ) :
    hidingGame e D = ddhReal F (lower (reduce2 e D)) := by
  unfold hidingGame trapdoorGame ddhReal lower reduce2
  rw [expect_reorder, ← expect_reorder' (fun p1 p2 a1 a2 t1 t2 => D (assembleCrs e prepareSimulatedHidingKey p1 p2 a1 a2 t1 t2))]
  simp only [assembleSim_eq]
  rfl

theorem crs_hybrid (D : CRS G1 G2 GT → ℝ) :
    |bindingGame e D - hidingGame e D| ≤ sxdhAdv e D := by
  have h1 := ddh_hybrid (F := F) (reduce1 e D)
  have h2 := ddh_hybrid (F := F) (reduce2 e D)
  rw [crsGame_mid] at h1
  rw [crsGame_binding, crsGame_hiding]
  refine (abs_sub_le _ (ddhReal F (reduce2 e D)) _).trans ?_
  rw [sxdhAdv]
  linarith

/-! ### Views -/

theorem SameViews.game {N : Nat} {run run' : List F → Res (CProof F G1 G2 × List F)}
    (h : SameViews (N := N) (viewOn run) (viewOn run')) (D : Res (View G1 G2) → ℝ) :
    viewGame (N := N) run D = viewGame (N := N) run' D := by
  obtain ⟨φ, hφ⟩ := h
  refine Fintype.expect_equiv φ _ _ fun t => ?_
  obtain ⟨v, h1, h2⟩ := hφ t
  rw [h1, h2]

theorem abs_expect_sub_le {X : Type} [Fintype X] (f g h : X → ℝ) (H : ∀ x, |f x - g x| ≤ h x) :
    |(𝔼 x, f x) - 𝔼 x, g x| ≤ 𝔼 x, h x := by
  rw [← Finset.expect_sub_distrib]
  exact (Finset.abs_expect_le _ _).trans (Finset.expect_le_expect fun x _ => H x)

theorem expect_zero_indicator {G : Type} [AddCommGroup G] [Fintype G] [DecidableEq G] :
    (𝔼 p : G, if p = 0 then (1 : ℝ) else 0) = 1 / Fintype.card G := by
  rw [Fintype.expect_eq_sum_div_card]
  simp

/-- Two functions of the CRS within 1 of each other that agree when both generators are nonzero. -/
theorem trapdoorGame_close (D D' : CRS G1 G2 GT → F → F → ℝ)
    (h : ∀ p1 p2 a1 a2 t1 t2, p1 ≠ 0 → p2 ≠ 0 →
      D (assembleCrs e prepareSimulatedHidingKey p1 p2 a1 a2 t1 t2) t1 t2 = D' (assembleCrs e prepareSimulatedHidingKey p1 p2 a1 a2 t1 t2) t1 t2)
    (hb : ∀ crs t1 t2, |D crs t1 t2 - D' crs t1 t2| ≤ 1) :
    |trapdoorGame e D - trapdoorGame e D'| ≤ 1 / Fintype.card G1 + 1 / Fintype.card G2 := by
  classical
  have key : |trapdoorGame e D - trapdoorGame e D'| ≤
      𝔼 p1 : G1, 𝔼 p2 : G2, ((if p1 = 0 then (1 : ℝ) else 0) + if p2 = 0 then (1 : ℝ) else 0) := by
    refine abs_expect_sub_le _ _ _ fun p1 => abs_expect_sub_le _ _ _ fun p2 => ?_
    have : ∀ a1 a2 t1 t2, |D (assembleCrs e prepareSimulatedHidingKey p1 p2 a1 a2 t1 t2) t1 t2 - D' (assembleCrs e prepareSimulatedHidingKey p1 p2 a1 a2 t1 t2) t1 t2| ≤
        (if p1 = 0 then (1 : ℝ) else 0) + if p2 = 0 then (1 : ℝ) else 0 := by
      intro a1 a2 t1 t2
      by_cases h1 : p1 = 0
      · refine (hb _ _ _).trans ?_
        rw [if_pos h1]
        split_ifs <;> norm_num
      · by_cases h2 : p2 = 0
        · refine (hb _ _ _).trans ?_
          rw [if_pos h2, if_neg h1]
          norm_num
        · rw [h _ _ _ _ _ _ h1 h2, if_neg h1, if_neg h2]
          simp
    have hc : ∀ (X : Type) [Fintype X] [Nonempty X] (c : ℝ), c = 𝔼 _x : X, c := fun X _ _ c => (Fintype.expect_const c).symm
    rw [hc F ((if p1 = 0 then (1 : ℝ) else 0) + _)]
    refine abs_expect_sub_le _ _ _ fun a1 => ?_
    rw [hc F ((if p1 = 0 then (1 : ℝ) else 0) + _)]
    refine abs_expect_sub_le _ _ _ fun a2 => ?_
    rw [hc F ((if p1 = 0 then (1 : ℝ) else 0) + _)]
    refine abs_expect_sub_le _ _ _ fun t1 => ?_
    rw [hc F ((if p1 = 0 then (1 : ℝ) else 0) + _)]
    exact abs_expect_sub_le _ _ _ fun t2 => this a1 a2 t1 t2
  refine key.trans (le_of_eq ?_)
  simp only [Finset.expect_add_distrib, Fintype.expect_const, expect_zero_indicator]

theorem viewGame_mem {N : Nat} (run : List F → Res (CProof F G1 G2 × List F)) {D : Res (View G1 G2) → ℝ}
    (h : ∀ v, 0 ≤ D v ∧ D v ≤ 1) : 0 ≤ viewGame (N := N) run D ∧ viewGame (N := N) run D ≤ 1 :=
  ⟨Finset.expect_nonneg fun _ _ => (h _).1, Finset.expect_le Finset.univ_nonempty fun _ _ => (h _).2⟩

end GS
