import Verif.Spec.Sampled
import Verif.Props.Curve
import Verif.Props.Probability

/-! # Lemmas about generators drawn by the sampler of points -/

set_option linter.unusedSectionVars false
open scoped BigOperators Classical

namespace GS

/-- The average of `f` with the weights of the sampler: `k - 1` for the identity and `k` for the others. -/
noncomputable def weighted {G : Type} [AddCommGroup G] [Fintype G] (k : Nat) (f : G → ℝ) : ℝ :=
  (∑ g, (if g = 0 then k - 1 else k : ℕ) * f g) / (Fintype.card G * k - 1)

section weighted
variable {G : Type} [AddCommGroup G] [Fintype G] {k : Nat}

theorem weight_sum (hk : 0 < k) (f : G → ℝ) : ∑ g, ((if g = 0 then k - 1 else k : ℕ) : ℝ) * f g = k * (∑ g, f g) - f 0 := by
  have h : ∀ g : G, ((if g = 0 then k - 1 else k : ℕ) : ℝ) * f g = k * f g - if g = 0 then f 0 else 0 := by
    intro g
    by_cases hg : g = 0
    · subst hg
      rw [if_pos rfl, if_pos rfl, Nat.cast_sub hk]
      push_cast
      ring
    · rw [if_neg hg, if_neg hg, sub_zero]
  rw [Finset.sum_congr rfl fun g _ => h g, Finset.sum_sub_distrib, ← Finset.mul_sum, Finset.sum_ite_eq' Finset.univ (0 : G)]
  simp

theorem weighted_eq (hk : 0 < k) (f : G → ℝ) : weighted k f = (k * (∑ g, f g) - f 0) / (Fintype.card G * k - 1) := by
  rw [weighted, weight_sum hk]

theorem weight_pos (hk : 0 < k) (h1 : 1 < Fintype.card G) : (0 : ℝ) < Fintype.card G * k - 1 := by
  have : 1 < Fintype.card G * k := lt_of_lt_of_le h1 (Nat.le_mul_of_pos_right _ hk)
  have : (1 : ℝ) < (Fintype.card G * k : ℕ) := by exact_mod_cast this
  push_cast at this
  linarith

theorem weighted_const (hk : 0 < k) (h1 : 1 < Fintype.card G) (a : ℝ) : weighted k (fun _ : G => a) = a := by
  rw [weighted_eq hk, div_eq_iff (weight_pos hk h1).ne', Finset.sum_const, Finset.card_univ, nsmul_eq_mul]
  ring

theorem weighted_mono (hk : 0 < k) (h1 : 1 < Fintype.card G) {f f' : G → ℝ} (h : ∀ g, f g ≤ f' g) : weighted k f ≤ weighted k f' := by
  unfold weighted
  exact div_le_div_of_nonneg_right (Finset.sum_le_sum fun g _ => mul_le_mul_of_nonneg_left (h g) (Nat.cast_nonneg _)) (weight_pos hk h1).le

theorem weighted_mul (f : G → ℝ) (a : ℝ) : weighted k (fun g => f g * a) = weighted k f * a := by
  unfold weighted
  simp only [← mul_assoc, ← Finset.sum_mul]
  ring

theorem weighted_sub (f f' : G → ℝ) : weighted k (fun g => f g - f' g) = weighted k f - weighted k f' := by
  unfold weighted
  simp only [mul_sub, Finset.sum_sub_distrib]
  ring

/-- How far the sampler is from uniform draws. -/
theorem weighted_distance (hk : 0 < k) (h1 : 1 < Fintype.card G) (f : G → ℝ) (hf : ∀ g, 0 ≤ f g ∧ f g ≤ 1) :
    |weighted k f - 𝔼 g, f g| ≤ 1 / (Fintype.card G * k) := by
  have hr : (1 : ℝ) < Fintype.card G := by exact_mod_cast h1
  have hk1 : (1 : ℝ) ≤ k := by exact_mod_cast hk
  have hw := weight_pos hk h1
  have hS : ∑ g, f g - f 0 = ∑ g ∈ Finset.univ.erase (0 : G), f g := by
    rw [← Finset.add_sum_erase _ _ (Finset.mem_univ (0 : G))]
    ring
  have h0 : 0 ≤ ∑ g, f g - f 0 := hS ▸ Finset.sum_nonneg fun g _ => (hf g).1
  have hle : ∑ g, f g - f 0 ≤ Fintype.card G - 1 := by
    rw [hS]
    refine (Finset.sum_le_sum fun g _ => (hf g).2).trans ?_
    rw [Finset.sum_const, Finset.card_erase_of_mem (Finset.mem_univ _), Finset.card_univ, nsmul_eq_mul, mul_one,
      Nat.cast_sub h1.le, Nat.cast_one]
  rw [weighted_eq hk, Finset.expect_eq_sum_div_card, Finset.card_univ, div_sub_div _ _ hw.ne' (by linarith), abs_div,
    abs_of_pos (mul_pos hw (by linarith : (0 : ℝ) < Fintype.card G)), div_le_div_iff₀ (mul_pos hw (by linarith)) (by positivity)]
  generalize (Fintype.card G : ℝ) = r at *
  generalize (k : ℝ) = k at *
  generalize hSS : ∑ g, f g = S at *
  have hf0 := hf 0
  generalize f 0 = f0 at *
  have ha : |(k * S - f0) * r - (r * k - 1) * S| ≤ r - 1 := by
    rw [show (k * S - f0) * r - (r * k - 1) * S = (S - f0) - (r - 1) * f0 by ring, abs_le]
    constructor <;> nlinarith
  calc |(k * S - f0) * r - (r * k - 1) * S| * (r * k) ≤ (r - 1) * (r * k) := mul_le_mul_of_nonneg_right ha (by positivity)
    _ ≤ 1 * ((r * k - 1) * r) := by nlinarith

theorem weighted_nonzero [∀ g : G, Decidable (g ≠ 0)] (hk : 0 < k) (h1 : 1 < Fintype.card G) :
    weighted k (fun g : G => if g ≠ 0 then 1 else 0) = 1 - (k - 1) / (Fintype.card G * k - 1) := by
  have hw := weight_pos hk h1
  have hs : ∑ g : G, (if g ≠ 0 then (1 : ℝ) else 0) = Fintype.card G - 1 := by
    have : ∀ g : G, (if g ≠ 0 then (1 : ℝ) else 0) = 1 - if g = 0 then 1 else 0 := fun g => by split_ifs <;> simp_all
    rw [Finset.sum_congr rfl fun g _ => this g, Finset.sum_sub_distrib, Finset.sum_ite_eq' Finset.univ (0 : G)]
    simp
  rw [weighted_eq hk, hs, eq_sub_iff_add_eq, ← add_div, div_eq_one_iff_eq hw.ne', if_neg (by simp)]
  ring

end weighted

section drawn
variable {B : Type} [Field B] [DecidableEq B] [Fintype B] {E : SWCurve B} {r : Nat} [hr : Fact r.Prime] [Fintype (E.torsion r)] {k n : Nat}
  {clear : Affine B → E.torsion r}

theorem sum_drawn {G : Type} [Fintype G] (clear : Affine B → G) (f : G → ℝ) :
    ∑ w : Fin n → B × Bool, (E.drawn clear w).elim 0 f = ∑ g, E.count clear n (some g) * f g := by
  have h : ∀ w : Fin n → B × Bool, (E.drawn clear w).elim 0 f = ∑ g, if E.drawn clear w = some g then f g else 0 := by
    intro w
    rcases E.drawn clear w with _ | g
    · simp
    · simp [Finset.sum_ite_eq]
  rw [Finset.sum_congr rfl fun w _ => h w, Finset.sum_comm]
  refine Finset.sum_congr rfl fun g _ => ?_
  rw [← Finset.sum_filter, Finset.sum_const, nsmul_eq_mul, SWCurve.count, Nat.card_eq_fintype_card, Fintype.card_subtype]
  rfl

theorem card_drawn {G : Type} [Fintype G] (clear : Affine B → G) :
    (Nat.card {w : Fin n → B × Bool // E.drawn clear w ≠ none} : ℝ) = ∑ g, (E.count clear n (some g) : ℝ) := by
  have := sum_drawn (E := E) (n := n) clear (fun _ => (1 : ℝ))
  simp only [mul_one] at this
  rw [← this, Nat.card_eq_fintype_card, Fintype.card_subtype, Finset.card_eq_sum_ones, Finset.sum_filter]
  push_cast
  refine Finset.sum_congr rfl fun w _ => ?_
  rcases E.drawn clear w with _ | g <;> simp

theorem SWCurve.Clears.pos (h : E.Clears r k clear) : 0 < k := Nat.pos_of_ne_zero fun h0 => h.cofactor (h0 ▸ dvd_zero r)

theorem SWCurve.Clears.card (h : E.Clears r k clear) : Fintype.card (E.torsion r) = r :=
  Nat.card_eq_fintype_card.symm.trans (C118_order h.cofactor h.card_points).1

theorem SWCurve.Clears.one_lt (h : E.Clears r k clear) : 1 < Fintype.card (E.torsion r) := by
  rw [h.card]; exact hr.out.one_lt

/-- Every point but the identity is that of some coordinate and sign. -/
theorem SWCurve.Clears.card_le (h : E.Clears r k clear) : Nat.card E.curve.Point ≤ 2 * Nat.card B + 1 := by
  have hex : ∀ a : {a : B × B // a.2 * a.2 = a.1 * a.1 * a.1 + E.a * a.1 + E.b}, ∃ b : B × Bool, E.pointFromX b.1 b.2 = some ⟨a.1.1, a.1.2, false⟩ := by
    intro a
    have hp := C115_points h.lawful ⟨a.1.1, a.1.2, false⟩
    have hon : E.onCurve ⟨a.1.1, a.1.2, false⟩ = true := by
      simp only [SWCurve.onCurve, Bool.false_or, SWCurve.rhs]
      exact decide_eq_true a.2
    rw [if_neg (by simp [hon])] at hp
    by_contra hn
    have : IsEmpty {b : B × Bool // E.pointFromX b.1 b.2 = some ⟨a.1.1, a.1.2, false⟩} := ⟨fun b => hn ⟨b.1, b.2⟩⟩
    rw [Nat.card_of_isEmpty] at hp
    split_ifs at hp
  choose b hb using hex
  have hinj : Function.Injective b := fun a a' haa => by
    have := (hb a).symm.trans (haa ▸ hb a')
    simp only [Option.some.injEq, Affine.mk.injEq, and_true] at this
    exact Subtype.ext (Prod.ext this.1 this.2)
  have := Nat.card_le_card_of_injective b hinj
  rw [Nat.card_prod, Nat.card_eq_fintype_card (α := Bool), Fintype.card_bool, Nat.card_eq_fintype_card] at this
  rw [SWCurve.card_points h.tests]
  omega

theorem average_drawn (h : E.Clears r k clear) (hn : 0 < n) (f : E.torsion r → ℝ) :
    (∑ w : Fin n → B × Bool, (E.drawn clear w).elim 0 f) / Nat.card {w : Fin n → B × Bool // E.drawn clear w ≠ none} = weighted k f ∧
    (Nat.card {w : Fin n → B × Bool // E.drawn clear w ≠ none} : ℝ) ≠ 0 := by
  obtain ⟨⟨c, hc, hcount⟩, -⟩ := C118_generator h.tests h.lawful h.noOrderTwo h.cofactor h.card_points clear h.clears n
  have hk0 := h.pos
  have h1 := h.one_lt
  have hw := weight_pos hk0 h1
  have hc0 : (c : ℝ) ≠ 0 := Nat.cast_ne_zero.mpr (hc hn).ne'
  have hs : ∀ f : E.torsion r → ℝ, ∑ g, (E.count clear n (some g) : ℝ) * f g = c * (k * (∑ g, f g) - f 0) := by
    intro f
    rw [← weight_sum hk0, Finset.mul_sum]
    refine Finset.sum_congr rfl fun g _ => ?_
    rw [hcount]
    by_cases hg : g = 0 <;> simp [hg, mul_assoc]
  have ht : (Nat.card {w : Fin n → B × Bool // E.drawn clear w ≠ none} : ℝ) = c * (Fintype.card (E.torsion r) * k - 1) := by
    have := hs fun _ => 1
    simp only [mul_one] at this
    rw [card_drawn, this, Finset.sum_const, Finset.card_univ, nsmul_eq_mul]
    ring
  rw [sum_drawn, hs, ht, weighted_eq hk0]
  exact ⟨by rw [mul_div_mul_left _ _ hc0], mul_ne_zero hc0 hw.ne'⟩

end drawn

section game
variable {r : Nat} [hr : Fact r.Prime] {B1 B2 GT : Type} [Field B1] [DecidableEq B1] [Fintype B1] [Field B2] [DecidableEq B2] [Fintype B2]
  {E1 : SWCurve B1} {E2 : SWCurve B2} [Fintype (E1.torsion r)] [Fintype (E2.torsion r)] [AddCommGroup GT] [Module (ZMod r) GT]
  {e : E1.torsion r →ₗ[ZMod r] E2.torsion r →ₗ[ZMod r] GT}
  {k1 k2 n : Nat} {clear1 : Affine B1 → E1.torsion r} {clear2 : Affine B2 → E2.torsion r}

/-- The scalars of a CRS are drawn. -/
noncomputable def scalarGame (e : E1.torsion r →ₗ[ZMod r] E2.torsion r →ₗ[ZMod r] GT) (D : CRS (E1.torsion r) (E2.torsion r) GT → ℝ)
    (p1 : E1.torsion r) (p2 : E2.torsion r) : ℝ :=
  𝔼 a1 : ZMod r, 𝔼 a2 : ZMod r, 𝔼 t1 : ZMod r, 𝔼 t2 : ZMod r, D (generateCrs e ([p1], [p2], [a1, a2, t1, t2])).1

theorem sampledGame_eq (h1 : E1.Clears r k1 clear1) (h2 : E2.Clears r k2 clear2) (hn : 0 < n) (D : CRS (E1.torsion r) (E2.torsion r) GT → ℝ) :
    sampledGame e E1 clear1 E2 clear2 n D = weighted k1 fun p1 => weighted k2 fun p2 => scalarGame e D p1 p2 := by
  have hcard : Nat.card {w : (Fin n → B1 × Bool) × (Fin n → B2 × Bool) // E1.drawn clear1 w.1 ≠ none ∧ E2.drawn clear2 w.2 ≠ none} =
      Nat.card {w : Fin n → B1 × Bool // E1.drawn clear1 w ≠ none} * Nat.card {w : Fin n → B2 × Bool // E2.drawn clear2 w ≠ none} := by
    rw [← Nat.card_prod]
    exact Nat.card_congr (Equiv.subtypeProdEquivProd (p := fun w => E1.drawn clear1 w ≠ none) (q := fun w => E2.drawn clear2 w ≠ none))
  have hN2 := fun p1 => average_drawn h2 hn fun p2 => scalarGame e D p1 p2
  have h02 := (average_drawn h2 hn fun _ => 0).2
  have hin : ∀ w1 : Fin n → B1 × Bool, (∑ w2 : Fin n → B2 × Bool,
      match E1.drawn clear1 w1, E2.drawn clear2 w2 with
      | some p1, some p2 => scalarGame e D p1 p2
      | _, _ => 0) = (E1.drawn clear1 w1).elim 0 fun p1 => weighted k2 (fun p2 => scalarGame e D p1 p2) *
        Nat.card {w : Fin n → B2 × Bool // E2.drawn clear2 w ≠ none} := by
    intro w1
    rcases E1.drawn clear1 w1 with _ | p1
    · simp
    · simp only [Option.elim_some]
      rw [← (hN2 p1).1, div_mul_cancel₀ _ h02]
      refine Finset.sum_congr rfl fun w2 _ => ?_
      rcases E2.drawn clear2 w2 with _ | p2 <;> rfl
  have h01 := (average_drawn h1 hn fun _ => 0).2
  have ho := (average_drawn h1 hn fun p1 => weighted k2 (fun p2 => scalarGame e D p1 p2) *
    Nat.card {w : Fin n → B2 × Bool // E2.drawn clear2 w ≠ none}).1
  rw [weighted_mul, div_eq_iff h01] at ho
  unfold sampledGame
  rw [hcard, Nat.cast_mul, div_eq_iff (mul_ne_zero h01 h02)]
  refine (Finset.sum_congr rfl fun w1 _ => Eq.trans (Finset.sum_congr rfl fun w2 _ => ?_) (hin w1)).trans (ho.trans (by ring))
  rcases E1.drawn clear1 w1 with _ | p1 <;> rcases E2.drawn clear2 w2 with _ | p2 <;> rfl

theorem scalarGame_mono {D D' : CRS (E1.torsion r) (E2.torsion r) GT → ℝ} (h : ∀ crs, D crs ≤ D' crs) (p1 : E1.torsion r) (p2 : E2.torsion r) :
    scalarGame e D p1 p2 ≤ scalarGame e D' p1 p2 := by
  unfold scalarGame
  exact Finset.expect_le_expect fun _ _ => Finset.expect_le_expect fun _ _ => Finset.expect_le_expect fun _ _ => Finset.expect_le_expect fun _ _ => h _

theorem scalarGame_const (a : ℝ) (p1 : E1.torsion r) (p2 : E2.torsion r) : scalarGame e (fun _ => a) p1 p2 = a := by
  simp only [scalarGame, Fintype.expect_const]

theorem sampledGame_mono (h1 : E1.Clears r k1 clear1) (h2 : E2.Clears r k2 clear2) (hn : 0 < n) {D D' : CRS (E1.torsion r) (E2.torsion r) GT → ℝ}
    (h : ∀ crs, D crs ≤ D' crs) : sampledGame e E1 clear1 E2 clear2 n D ≤ sampledGame e E1 clear1 E2 clear2 n D' := by
  rw [sampledGame_eq h1 h2 hn, sampledGame_eq h1 h2 hn]
  exact weighted_mono h1.pos h1.one_lt fun p1 => weighted_mono h2.pos h2.one_lt fun p2 => scalarGame_mono h p1 p2

omit [Fintype (E1.torsion r)] [Fintype (E2.torsion r)] in
theorem sampledGame_generated {D D' : CRS (E1.torsion r) (E2.torsion r) GT → ℝ} (h : ∀ crs, GeneratedCrs e crs → D crs = D' crs) :
    sampledGame e E1 clear1 E2 clear2 n D = sampledGame e E1 clear1 E2 clear2 n D' := by
  have : ∀ rng : List (E1.torsion r) × List (E2.torsion r) × List (ZMod r), D (generateCrs e rng).1 = D' (generateCrs e rng).1 :=
    fun rng => h _ ⟨_, _, rng, rfl⟩
  simp only [sampledGame, this]

end game

end GS
