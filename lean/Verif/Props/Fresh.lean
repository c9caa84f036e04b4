import Verif.Spec.Games
import Verif.Spec.Accept
import Verif.Lemmas.Games
import Verif.Props.Verification
import Verif.Props.Domains
import Verif.Props.Example
import Verif.Lemmas.Range
import Verif.Props.Completeness
import Verif.Props.Variables

/-!
# C87: a proof is tied to its CRS

A proof that does not depend on the CRS, for example one made for another CRS, is accepted with a fresh CRS with negligible
probability, unless all its elements are zero.
-/

set_option linter.unusedSectionVars false
set_option linter.unusedSimpArgs false

open scoped BigOperators

namespace GS

section average
variable {T P : Type} [Fintype T] [Fintype P] [Nonempty T] [Nonempty P]

open Classical in
theorem expect_unique_le (E : P → Prop) (h : ∀ p p', E p → E p' → p = p') :
    (𝔼 p, if E p then (1 : ℝ) else 0) ≤ 1 / Fintype.card P := by
  rw [Fintype.expect_eq_sum_div_card]
  refine div_le_div_of_nonneg_right ?_ (Nat.cast_nonneg _)
  rw [Finset.sum_boole]
  exact_mod_cast Finset.card_le_one.mpr fun a ha b hb => h a b (Finset.mem_filter.mp ha).2 (Finset.mem_filter.mp hb).2

open Classical in
theorem expect_two_step (B : T → Prop) (E : T → P → Prop) (hB : ∀ t t', B t → B t' → t = t')
    (hE : ∀ t, ¬ B t → ∀ p p', E t p → E t p' → p = p') :
    (𝔼 t, 𝔼 p, if E t p then (1 : ℝ) else 0) ≤ 1 / Fintype.card T + 1 / Fintype.card P := by
  have h : ∀ t, (𝔼 p, if E t p then (1 : ℝ) else 0) ≤ (if B t then 1 else 0) + 1 / Fintype.card P := by
    intro t
    by_cases ht : B t
    · rw [if_pos ht]
      refine (Finset.expect_le Finset.univ_nonempty fun p _ => (ite_le_one_real _)).trans ?_
      exact le_add_of_nonneg_right (by positivity)
    · rw [if_neg ht, zero_add]
      exact expect_unique_le _ (hE t ht)
  refine (Finset.expect_le_expect fun t _ => h t).trans ?_
  rw [Finset.expect_add_distrib, Fintype.expect_const]
  gcongr
  exact expect_unique_le B hB
where
  ite_le_one_real (p : Prop) [Decidable p] : (if p then (1 : ℝ) else 0) ≤ 1 := by split_ifs <;> norm_num

end average

variable {F G1 G2 GT : Type} [Field F] [AddCommGroup G1] [Module F G1] [AddCommGroup G2] [Module F G2]
  [AddCommGroup GT] [Module F GT] [Fintype F] [Fintype G1] [Fintype G2] {e : G1 →ₗ[F] G2 →ₗ[F] GT}

open Classical in
/-- Events that, for each choice of the other draws, bound the pairing of the generator with `α + t • β`. -/
theorem fresh_le (he : PrimeGroups e) {α β : Com G2} (hne : α ≠ 0 ∨ β ≠ 0) (κ κ' : F → GT) (E : F → G1 → Prop)
    (h : ∀ t p, E t p → e p (α + t • β).c0 = κ t ∧ e p (α + t • β).c1 = κ' t) :
    (𝔼 t, 𝔼 p, if E t p then (1 : ℝ) else 0) ≤ 1 / Fintype.card F + 1 / Fintype.card G1 := by
  refine expect_two_step (fun t => α + t • β = 0) E ?_ ?_
  · intro t t' h1 h2
    by_contra hn
    have : (t - t') • β = 0 := by rw [sub_smul, ← add_sub_add_left_eq_sub _ _ α, h1, h2, sub_zero]
    have hβ := (smul_eq_zero.mp this).resolve_left (sub_ne_zero.mpr hn)
    rw [hβ, smul_zero, add_zero] at h1
    exact hne.elim (· h1) (· hβ)
  · intro t ht p p' h1 h2
    obtain ⟨a0, a1⟩ := h t p h1
    obtain ⟨b0, b1⟩ := h t p' h2
    by_contra hn
    refine ht (Com.ext ?_ ?_)
    · have : e (p - p') (α + t • β).c0 = 0 := by rw [map_sub, LinearMap.sub_apply, a0, b0, sub_self]
      exact (he.nondeg _ _ this).resolve_left (sub_ne_zero.mpr hn)
    · have : e (p - p') (α + t • β).c1 = 0 := by rw [map_sub, LinearMap.sub_apply, a1, b1, sub_self]
      exact (he.nondeg _ _ this).resolve_left (sub_ne_zero.mpr hn)

section games
variable (D : CRS G1 G2 GT → ℝ) (r : ℝ)

theorem bindingGame_le1 (h : ∀ (p2 : G2) (a1 a2 t2 : F), (𝔼 t1 : F, 𝔼 p1 : G1,
      D (crsOf e p1 (a1 • p1) (t1 • p1) (t1 • a1 • p1) p2 (a2 • p2) (t2 • p2) (t2 • a2 • p2))) ≤ r) : bindingGame e D ≤ r := by
  rw [crsGame_binding]
  unfold ddhReal reduce1
  rw [← expect_reorder' fun p1 p2 a1 a2 t1 t2 => D (crsOf e p1 (a1 • p1) (t1 • p1) (t1 • a1 • p1) p2 (a2 • p2) (t2 • p2)
    (t2 • a2 • p2))]
  refine Finset.expect_le Finset.univ_nonempty fun p2 _ => Finset.expect_le Finset.univ_nonempty fun a2 _ =>
    Finset.expect_le Finset.univ_nonempty fun t2 _ => ?_
  rw [Finset.expect_comm]
  refine Finset.expect_le Finset.univ_nonempty fun a1 _ => ?_
  rw [Finset.expect_comm]
  exact h p2 a1 a2 t2

theorem bindingGame_le2 (h : ∀ (p1 : G1) (a1 a2 t1 : F), (𝔼 t2 : F, 𝔼 p2 : G2,
      D (crsOf e p1 (a1 • p1) (t1 • p1) (t1 • a1 • p1) p2 (a2 • p2) (t2 • p2) (t2 • a2 • p2))) ≤ r) : bindingGame e D ≤ r := by
  rw [crsGame_binding]
  unfold ddhReal reduce1
  refine Finset.expect_le Finset.univ_nonempty fun p1 _ => Finset.expect_le Finset.univ_nonempty fun a1 _ =>
    Finset.expect_le Finset.univ_nonempty fun t1 _ => ?_
  rw [Finset.expect_comm]
  refine Finset.expect_le Finset.univ_nonempty fun a2 _ => ?_
  rw [Finset.expect_comm]
  exact h p1 a1 a2 t1

end games

section algebra
variable {H : Type} [AddCommGroup H] [Module F H]

/-- The linear combination of `d` with coefficients `a`. -/
def lin (a : List F) (d : List H) : H := (List.zipWith (fun a d => a • d) a d).sum

theorem zip_lin_left (w : Com G1) (a : List F) (d : List (Com G2)) :
    (List.zipWith (tensor e) (a.map fun a => a • w) d).sum = tensor e w (lin a d) := by
  induction a generalizing d with
  | nil => simp [lin, tensor]; rfl
  | cons a as ih =>
    cases d with
    | nil => simp [lin, tensor]; rfl
    | cons d ds =>
      have := ih ds
      simp only [lin, List.map_cons, List.zipWith_cons_cons, List.sum_cons] at this ⊢
      rw [this]
      ext <;> simp [tensor]

theorem zip_lin_right (w : Com G2) (c : List (Com G1)) (b : List F) :
    (List.zipWith (tensor e) c (b.map fun b => b • w)).sum = tensor e (lin b c) w := by
  induction b generalizing c with
  | nil => simp [lin, tensor]; rfl
  | cons b bs ih =>
    cases c with
    | nil => simp [lin, tensor]; rfl
    | cons c cs =>
      have := ih cs
      simp only [lin, List.map_cons, List.zipWith_cons_cons, List.sum_cons] at this ⊢
      rw [this]
      ext <;> simp [tensor]

end algebra

theorem bindingGame_never (E : CRS G1 G2 GT → Prop) [DecidablePred E] (h : ∀ crs, crs.u.length = 2 → crs.v.length = 2 → ¬ E crs) :
    bindingGame e (fun crs => if E crs then 1 else 0) ≤ 0 := by
  refine bindingGame_le1 _ _ fun p2 a1 a2 t2 => Finset.expect_le Finset.univ_nonempty fun t1 _ =>
    Finset.expect_le Finset.univ_nonempty fun p1 _ => ?_
  rw [if_neg (h _ rfl rfl)]

theorem tensor_fun : tensor e = fun c d => ComT.pairL e c d := rfl

theorem bound_nonneg (X Y : Type) [Fintype X] [Fintype Y] : (0 : ℝ) ≤ 1 / Fintype.card X + 1 / Fintype.card Y := by positivity

theorem pair_ne {H : Type} [Zero H] {x y P : H} (hP : P ∈ [x, y]) (hne : P ≠ 0) : x ≠ 0 ∨ y ≠ 0 := by
  rcases List.mem_pair.mp hP with rfl | rfl
  · exact .inl hne
  · exact .inr hne

theorem tied1 (he : PrimeGroups e) (E : CRS G1 G2 GT → Prop) [DecidablePred E] (α : Com G2) (β : G2 → F → F → F → Com G2)
    (hne : ∀ p2 a1 a2 t2, α ≠ 0 ∨ β p2 a1 a2 t2 ≠ 0) (K : G2 → F → F → F → ComT GT)
    (h : ∀ (p1 : G1) (p2 : G2) (a1 a2 t1 t2 : F), E (crsOf e p1 (a1 • p1) (t1 • p1) (t1 • a1 • p1) p2 (a2 • p2) (t2 • p2) (t2 • a2 • p2)) →
      ∃ Z : ComT GT, tensor e ⟨p1, a1 • p1⟩ α + tensor e ⟨t1 • p1, t1 • a1 • p1⟩ (β p2 a1 a2 t2) = K p2 a1 a2 t2 + Z ∧ Z.t0 = 0 ∧ Z.t1 = 0) :
    bindingGame e (fun crs => if E crs then 1 else 0) ≤ 1 / Fintype.card F + 1 / Fintype.card G1 := by
  classical
  refine bindingGame_le1 _ _ fun p2 a1 a2 t2 => ?_
  convert fresh_le he (hne p2 a1 a2 t2) (fun _ => (K p2 a1 a2 t2).t0) (fun _ => (K p2 a1 a2 t2).t1)
    (fun t1 p1 => E (crsOf e p1 (a1 • p1) (t1 • p1) (t1 • a1 • p1) p2 (a2 • p2) (t2 • p2) (t2 • a2 • p2))) ?_
  intro t1 p1 hE
  obtain ⟨Z, hZ, hZ0, hZ1⟩ := h _ _ _ _ _ _ hE
  constructor
  · have := congrArg ComT.t0 hZ
    simpa [tensor, hZ0] using this
  · have := congrArg ComT.t1 hZ
    simpa [tensor, hZ1] using this

theorem tied2 (he : PrimeGroups e) (E : CRS G1 G2 GT → Prop) [DecidablePred E] (α : Com G1) (β : G1 → F → F → F → Com G1)
    (hne : ∀ p1 a1 a2 t1, α ≠ 0 ∨ β p1 a1 a2 t1 ≠ 0) (K : G1 → F → F → F → ComT GT)
    (h : ∀ (p1 : G1) (p2 : G2) (a1 a2 t1 t2 : F), E (crsOf e p1 (a1 • p1) (t1 • p1) (t1 • a1 • p1) p2 (a2 • p2) (t2 • p2) (t2 • a2 • p2)) →
      ∃ Z : ComT GT, tensor e α ⟨p2, a2 • p2⟩ + tensor e (β p1 a1 a2 t1) ⟨t2 • p2, t2 • a2 • p2⟩ = K p1 a1 a2 t1 + Z ∧ Z.t0 = 0 ∧ Z.t2 = 0) :
    bindingGame e (fun crs => if E crs then 1 else 0) ≤ 1 / Fintype.card F + 1 / Fintype.card G2 := by
  classical
  refine bindingGame_le2 _ _ fun p1 a1 a2 t1 => ?_
  convert fresh_le he.flip (hne p1 a1 a2 t1) (fun _ => (K p1 a1 a2 t1).t0) (fun _ => (K p1 a1 a2 t1).t2)
    (fun t2 p2 => E (crsOf e p1 (a1 • p1) (t1 • p1) (t1 • a1 • p1) p2 (a2 • p2) (t2 • p2) (t2 • a2 • p2))) ?_
  intro t2 p2 hE
  obtain ⟨Z, hZ, hZ0, hZ1⟩ := h _ _ _ _ _ _ hE
  constructor
  · have := congrArg ComT.t0 hZ
    simpa [tensor, hZ0] using this
  · have := congrArg ComT.t2 hZ
    simpa [tensor, hZ1] using this

variable [DecidableEq GT]

open Classical in
/-- C87, PPE. -/
theorem C87_ppe (he : PrimeGroups e) (equ : PPE F G1 G2 GT) (cp : CProof F G1 G2) (sch : Scheduler) :
    ((∃ pf ∈ cp.equ_proofs, ∃ P ∈ pf.pi, P ≠ 0) →
      bindingGame e (fun crs => if equ.verify e sch cp crs = .ok true then 1 else 0) ≤ 1 / Fintype.card F + 1 / Fintype.card G1) ∧
    ((∃ pf ∈ cp.equ_proofs, ∃ Q ∈ pf.theta, Q ≠ 0) →
      bindingGame e (fun crs => if equ.verify e sch cp crs = .ok true then 1 else 0) ≤ 1 / Fintype.card F + 1 / Fintype.card G2) := by
  have hacc : ∀ {crs}, equ.verify e sch cp crs = .ok true → ∃ pf, cp.equ_proofs = [pf] ∧ equ.Equation e crs cp.xcoms.coms cp.ycoms.coms pf := by
    intro crs h
    obtain ⟨pf, h1, h2⟩ := C53_ppe cp sch true equ h
    exact ⟨pf, h1, h2.mp rfl⟩
  constructor
  · rintro ⟨pf, hpf, P, hP, hne⟩
    by_cases hl : cp.equ_proofs = [pf] ∧ pf.pi.length = 2
    swap
    · refine (bindingGame_never (fun crs => equ.verify e sch cp crs = .ok true) fun crs hu hv h => hl ?_).trans (bound_nonneg _ _)
      obtain ⟨pf', h1, h2⟩ := (C37_ppe e sch cp crs equ).mp ⟨_, h⟩
      rw [h1, List.mem_singleton] at hpf
      subst hpf
      exact ⟨h1, by first | exact h2.2.2.2.2.1.trans (by assumption) | exact h2.2.2.2.2.2.trans (by assumption) | exact h2.2.2.2.2.2.2.trans (by assumption)⟩
    obtain ⟨hpf', hl⟩ := hl
    obtain ⟨z0, z1, hz⟩ := List.length_eq_two.mp hl
    rw [hz] at hP
    refine tied1 he (fun crs => equ.verify e sch cp crs = .ok true) (z0) (fun p2 a1 a2 t2 => z1) (fun _ _ _ _ => pair_ne hP hne) (fun p2 a1 a2 t2 =>
      (List.zipWith (tensor e) (equ.a_consts.map emb) cp.ycoms.coms).sum + (List.zipWith (tensor e) cp.xcoms.coms (equ.b_consts.map emb)).sum + (List.zipWith (fun x row => (List.zipWith (fun g y => g • tensor e x y) row cp.ycoms.coms).sum) cp.xcoms.coms equ.gamma).sum - (⟨0, 0, 0, equ.target⟩ : ComT GT) - (List.zipWith (tensor e) pf.theta [(⟨p2, a2 • p2⟩ : Com G2), ⟨t2 • p2, t2 • a2 • p2⟩]).sum) fun p1 p2 a1 a2 t1 t2 h => ?_
    obtain ⟨pf', hp1, heq⟩ := hacc h
    rw [hpf'] at hp1
    cases hp1
    have heq := heq
    rw [PPE.Equation, hz] at heq
    rw [gsEquation, equLhs] at heq
    refine ⟨0, ?_, rfl, rfl⟩
    simp only [crsOf, List.zipWith_cons_cons, List.zipWith_nil_left, List.sum_cons, List.sum_nil, tensor_fun, map_add, map_sub, map_smul,
      LinearMap.add_apply, LinearMap.sub_apply, LinearMap.smul_apply, smul_add, smul_sub] at heq ⊢
    rw [← sub_eq_zero] at heq ⊢
    refine neg_eq_zero.mp (Eq.trans ?_ heq)
    abel
  · rintro ⟨pf, hpf, Q, hQ, hne⟩
    by_cases hl : cp.equ_proofs = [pf] ∧ pf.theta.length = 2
    swap
    · refine (bindingGame_never (fun crs => equ.verify e sch cp crs = .ok true) fun crs hu hv h => hl ?_).trans (bound_nonneg _ _)
      obtain ⟨pf', h1, h2⟩ := (C37_ppe e sch cp crs equ).mp ⟨_, h⟩
      rw [h1, List.mem_singleton] at hpf
      subst hpf
      exact ⟨h1, by first | exact h2.2.2.2.2.1.trans (by assumption) | exact h2.2.2.2.2.2.trans (by assumption) | exact h2.2.2.2.2.2.2.trans (by assumption)⟩
    obtain ⟨hpf', hl⟩ := hl
    obtain ⟨z0, z1, hz⟩ := List.length_eq_two.mp hl
    rw [hz] at hQ
    refine tied2 he (fun crs => equ.verify e sch cp crs = .ok true) (z0) (fun p1 a1 a2 t1 => z1) (fun _ _ _ _ => pair_ne hQ hne) (fun p1 a1 a2 t1 =>
      (List.zipWith (tensor e) (equ.a_consts.map emb) cp.ycoms.coms).sum + (List.zipWith (tensor e) cp.xcoms.coms (equ.b_consts.map emb)).sum + (List.zipWith (fun x row => (List.zipWith (fun g y => g • tensor e x y) row cp.ycoms.coms).sum) cp.xcoms.coms equ.gamma).sum - (⟨0, 0, 0, equ.target⟩ : ComT GT) - (List.zipWith (tensor e) [(⟨p1, a1 • p1⟩ : Com G1), ⟨t1 • p1, t1 • a1 • p1⟩] pf.pi).sum) fun p1 p2 a1 a2 t1 t2 h => ?_
    obtain ⟨pf', hp1, heq⟩ := hacc h
    rw [hpf'] at hp1
    cases hp1
    have heq := heq
    rw [PPE.Equation, hz] at heq
    rw [gsEquation, equLhs] at heq
    refine ⟨0, ?_, rfl, rfl⟩
    simp only [crsOf, List.zipWith_cons_cons, List.zipWith_nil_left, List.sum_cons, List.sum_nil, tensor_fun, map_add, map_sub, map_smul,
      LinearMap.add_apply, LinearMap.sub_apply, LinearMap.smul_apply, smul_add, smul_sub] at heq ⊢
    rw [← sub_eq_zero] at heq ⊢
    refine neg_eq_zero.mp (Eq.trans ?_ heq)
    abel

open Classical in
/-- C87, MSMEG1. -/
theorem C87_msmeg1 (he : PrimeGroups e) (equ : MSMEG1 F G1) (cp : CProof F G1 G2) (sch : Scheduler) :
    ((∃ pf ∈ cp.equ_proofs, ∃ P ∈ pf.pi, P ≠ 0) →
      bindingGame e (fun crs => if equ.verify e sch cp crs = .ok true then 1 else 0) ≤ 1 / Fintype.card F + 1 / Fintype.card G1) ∧
    ((∃ pf ∈ cp.equ_proofs, ∃ Q ∈ pf.theta.take 1, Q ≠ 0) →
      bindingGame e (fun crs => if equ.verify e sch cp crs = .ok true then 1 else 0) ≤ 1 / Fintype.card F + 1 / Fintype.card G2) := by
  have hacc : ∀ {crs}, equ.verify e sch cp crs = .ok true → ∃ pf, cp.equ_proofs = [pf] ∧ equ.Equation e crs cp.xcoms.coms cp.ycoms.coms pf := by
    intro crs h
    obtain ⟨pf, h1, h2⟩ := C53_msmeg1 cp sch true equ h
    exact ⟨pf, h1, h2.mp rfl⟩
  constructor
  · rintro ⟨pf, hpf, P, hP, hne⟩
    by_cases hl : cp.equ_proofs = [pf] ∧ pf.pi.length = 2
    swap
    · refine (bindingGame_never (fun crs => equ.verify e sch cp crs = .ok true) fun crs hu hv h => hl ?_).trans (bound_nonneg _ _)
      obtain ⟨pf', h1, h2⟩ := (C37_msmeg1 e sch cp crs equ).mp ⟨_, h⟩
      rw [h1, List.mem_singleton] at hpf
      subst hpf
      exact ⟨h1, by first | exact h2.2.2.2.2.1.trans (by assumption) | exact h2.2.2.2.2.2.trans (by assumption) | exact h2.2.2.2.2.2.2.trans (by assumption)⟩
    obtain ⟨hpf', hl⟩ := hl
    obtain ⟨z0, z1, hz⟩ := List.length_eq_two.mp hl
    rw [hz] at hP
    refine tied1 he (fun crs => equ.verify e sch cp crs = .ok true) (z0) (fun p2 a1 a2 t2 => z1) (fun _ _ _ _ => pair_ne hP hne) (fun p2 a1 a2 t2 =>
      (List.zipWith (tensor e) (equ.a_consts.map emb) cp.ycoms.coms).sum + tensor e (lin equ.b_consts cp.xcoms.coms) ((⟨t2 • p2, t2 • a2 • p2⟩ : Com G2) + emb p2) + (List.zipWith (fun x row => (List.zipWith (fun g y => g • tensor e x y) row cp.ycoms.coms).sum) cp.xcoms.coms equ.gamma).sum - tensor e (emb equ.target) ((⟨t2 • p2, t2 • a2 • p2⟩ : Com G2) + emb p2) - (List.zipWith (tensor e) (pf.theta.take 1) [(⟨p2, a2 • p2⟩ : Com G2)]).sum) fun p1 p2 a1 a2 t1 t2 h => ?_
    obtain ⟨pf', hp1, heq⟩ := hacc h
    rw [hpf'] at hp1
    cases hp1
    obtain ⟨_, _, _, q0, q', h1, h3, heq⟩ := heq
    cases h1
    have htk : pf.theta.take 1 = [q0] := by rw [h3]; rfl
    rw [hz] at heq
    rw [gsEquation, equLhs, zip_lin_right] at heq
    rw [htk]
    refine ⟨0, ?_, rfl, rfl⟩
    simp only [crsOf, List.zipWith_cons_cons, List.zipWith_nil_left, List.sum_cons, List.sum_nil, tensor_fun, map_add, map_sub, map_smul,
      LinearMap.add_apply, LinearMap.sub_apply, LinearMap.smul_apply, smul_add, smul_sub] at heq ⊢
    rw [← sub_eq_zero] at heq ⊢
    refine neg_eq_zero.mp (Eq.trans ?_ heq)
    abel
  · rintro ⟨pf, hpf, Q, hQ, hne⟩
    by_cases hl : cp.equ_proofs = [pf]
    swap
    · refine (bindingGame_never (fun crs => equ.verify e sch cp crs = .ok true) fun crs hu hv h => hl ?_).trans (bound_nonneg _ _)
      obtain ⟨pf', h1, h2⟩ := hacc h
      rw [h1, List.mem_singleton] at hpf
      subst hpf
      exact h1
    have hpf' := hl
    obtain ⟨z', hz⟩ : ∃ z', pf.theta = Q :: z' := by
      cases hz : pf.theta with
      | nil => simp [hz] at hQ
      | cons a z' => rw [hz] at hQ; simp only [List.take_succ_cons, List.take_zero, List.mem_singleton] at hQ; exact ⟨z', by rw [hQ]⟩
    refine tied2 he (fun crs => equ.verify e sch cp crs = .ok true) (Q) (fun p1 a1 a2 t1 => emb equ.target - lin equ.b_consts cp.xcoms.coms) (fun _ _ _ _ => .inl hne) (fun p1 a1 a2 t1 =>
      (List.zipWith (tensor e) (equ.a_consts.map emb) cp.ycoms.coms).sum + (List.zipWith (fun x row => (List.zipWith (fun g y => g • tensor e x y) row cp.ycoms.coms).sum) cp.xcoms.coms equ.gamma).sum - (List.zipWith (tensor e) [(⟨p1, a1 • p1⟩ : Com G1), ⟨t1 • p1, t1 • a1 • p1⟩] pf.pi).sum) fun p1 p2 a1 a2 t1 t2 h => ?_
    obtain ⟨pf', hp1, heq⟩ := hacc h
    rw [hpf'] at hp1
    cases hp1
    obtain ⟨_, _, _, q0, q', h1, h3, heq⟩ := heq
    cases h1
    rw [hz] at h3
    cases h3
    rw [gsEquation, equLhs, zip_lin_right] at heq
    refine ⟨tensor e (lin equ.b_consts cp.xcoms.coms - emb equ.target) (emb p2), ?_, by simp [tensor, emb], by simp [tensor, emb]⟩
    simp only [crsOf, List.zipWith_cons_cons, List.zipWith_nil_left, List.sum_cons, List.sum_nil, tensor_fun, map_add, map_sub, map_smul,
      LinearMap.add_apply, LinearMap.sub_apply, LinearMap.smul_apply, smul_add, smul_sub] at heq ⊢
    rw [← sub_eq_zero] at heq ⊢
    refine neg_eq_zero.mp (Eq.trans ?_ heq)
    abel

open Classical in
/-- C87, MSMEG2. -/
theorem C87_msmeg2 (he : PrimeGroups e) (equ : MSMEG2 F G2) (cp : CProof F G1 G2) (sch : Scheduler) :
    ((∃ pf ∈ cp.equ_proofs, ∃ P ∈ pf.pi.take 1, P ≠ 0) →
      bindingGame e (fun crs => if equ.verify e sch cp crs = .ok true then 1 else 0) ≤ 1 / Fintype.card F + 1 / Fintype.card G1) ∧
    ((∃ pf ∈ cp.equ_proofs, ∃ Q ∈ pf.theta, Q ≠ 0) →
      bindingGame e (fun crs => if equ.verify e sch cp crs = .ok true then 1 else 0) ≤ 1 / Fintype.card F + 1 / Fintype.card G2) := by
  have hacc : ∀ {crs}, equ.verify e sch cp crs = .ok true → ∃ pf, cp.equ_proofs = [pf] ∧ equ.Equation e crs cp.xcoms.coms cp.ycoms.coms pf := by
    intro crs h
    obtain ⟨pf, h1, h2⟩ := C53_msmeg2 cp sch true equ h
    exact ⟨pf, h1, h2.mp rfl⟩
  constructor
  · rintro ⟨pf, hpf, P, hP, hne⟩
    by_cases hl : cp.equ_proofs = [pf]
    swap
    · refine (bindingGame_never (fun crs => equ.verify e sch cp crs = .ok true) fun crs hu hv h => hl ?_).trans (bound_nonneg _ _)
      obtain ⟨pf', h1, h2⟩ := hacc h
      rw [h1, List.mem_singleton] at hpf
      subst hpf
      exact h1
    have hpf' := hl
    obtain ⟨z', hz⟩ : ∃ z', pf.pi = P :: z' := by
      cases hz : pf.pi with
      | nil => simp [hz] at hP
      | cons a z' => rw [hz] at hP; simp only [List.take_succ_cons, List.take_zero, List.mem_singleton] at hP; exact ⟨z', by rw [hP]⟩
    refine tied1 he (fun crs => equ.verify e sch cp crs = .ok true) (P) (fun p2 a1 a2 t2 => emb equ.target - lin equ.a_consts cp.ycoms.coms) (fun _ _ _ _ => .inl hne) (fun p2 a1 a2 t2 =>
      (List.zipWith (tensor e) cp.xcoms.coms (equ.b_consts.map emb)).sum + (List.zipWith (fun x row => (List.zipWith (fun g y => g • tensor e x y) row cp.ycoms.coms).sum) cp.xcoms.coms equ.gamma).sum - (List.zipWith (tensor e) pf.theta [(⟨p2, a2 • p2⟩ : Com G2), ⟨t2 • p2, t2 • a2 • p2⟩]).sum) fun p1 p2 a1 a2 t1 t2 h => ?_
    obtain ⟨pf', hp1, heq⟩ := hacc h
    rw [hpf'] at hp1
    cases hp1
    obtain ⟨_, _, _, q0, q', h1, h3, heq⟩ := heq
    cases h1
    rw [hz] at h3
    cases h3
    rw [gsEquation, equLhs, zip_lin_left] at heq
    refine ⟨tensor e (emb p1) (lin equ.a_consts cp.ycoms.coms - emb equ.target), ?_, by simp [tensor, emb], by simp [tensor, emb]⟩
    simp only [crsOf, List.zipWith_cons_cons, List.zipWith_nil_left, List.sum_cons, List.sum_nil, tensor_fun, map_add, map_sub, map_smul,
      LinearMap.add_apply, LinearMap.sub_apply, LinearMap.smul_apply, smul_add, smul_sub] at heq ⊢
    rw [← sub_eq_zero] at heq ⊢
    refine neg_eq_zero.mp (Eq.trans ?_ heq)
    abel
  · rintro ⟨pf, hpf, Q, hQ, hne⟩
    by_cases hl : cp.equ_proofs = [pf] ∧ pf.theta.length = 2
    swap
    · refine (bindingGame_never (fun crs => equ.verify e sch cp crs = .ok true) fun crs hu hv h => hl ?_).trans (bound_nonneg _ _)
      obtain ⟨pf', h1, h2⟩ := (C37_msmeg2 e sch cp crs equ).mp ⟨_, h⟩
      rw [h1, List.mem_singleton] at hpf
      subst hpf
      exact ⟨h1, by first | exact h2.2.2.2.2.1.trans (by assumption) | exact h2.2.2.2.2.2.trans (by assumption) | exact h2.2.2.2.2.2.2.trans (by assumption)⟩
    obtain ⟨hpf', hl⟩ := hl
    obtain ⟨z0, z1, hz⟩ := List.length_eq_two.mp hl
    rw [hz] at hQ
    refine tied2 he (fun crs => equ.verify e sch cp crs = .ok true) (z0) (fun p1 a1 a2 t1 => z1) (fun _ _ _ _ => pair_ne hQ hne) (fun p1 a1 a2 t1 =>
      tensor e ((⟨t1 • p1, t1 • a1 • p1⟩ : Com G1) + emb p1) (lin equ.a_consts cp.ycoms.coms) + (List.zipWith (tensor e) cp.xcoms.coms (equ.b_consts.map emb)).sum + (List.zipWith (fun x row => (List.zipWith (fun g y => g • tensor e x y) row cp.ycoms.coms).sum) cp.xcoms.coms equ.gamma).sum - tensor e ((⟨t1 • p1, t1 • a1 • p1⟩ : Com G1) + emb p1) (emb equ.target) - (List.zipWith (tensor e) [(⟨p1, a1 • p1⟩ : Com G1)] (pf.pi.take 1)).sum) fun p1 p2 a1 a2 t1 t2 h => ?_
    obtain ⟨pf', hp1, heq⟩ := hacc h
    rw [hpf'] at hp1
    cases hp1
    obtain ⟨_, _, _, q0, q', h1, h3, heq⟩ := heq
    cases h1
    have htk : pf.pi.take 1 = [q0] := by rw [h3]; rfl
    rw [hz] at heq
    rw [gsEquation, equLhs, zip_lin_left] at heq
    rw [htk]
    refine ⟨0, ?_, rfl, rfl⟩
    simp only [crsOf, List.zipWith_cons_cons, List.zipWith_nil_left, List.sum_cons, List.sum_nil, tensor_fun, map_add, map_sub, map_smul,
      LinearMap.add_apply, LinearMap.sub_apply, LinearMap.smul_apply, smul_add, smul_sub] at heq ⊢
    rw [← sub_eq_zero] at heq ⊢
    refine neg_eq_zero.mp (Eq.trans ?_ heq)
    abel

open Classical in
/-- C87, QuadEqu. -/
theorem C87_quad (he : PrimeGroups e) (equ : QuadEqu F) (cp : CProof F G1 G2) (sch : Scheduler) :
    ((∃ pf ∈ cp.equ_proofs, ∃ P ∈ pf.pi.take 1, P ≠ 0) →
      bindingGame e (fun crs => if equ.verify e sch cp crs = .ok true then 1 else 0) ≤ 1 / Fintype.card F + 1 / Fintype.card G1) ∧
    ((∃ pf ∈ cp.equ_proofs, ∃ Q ∈ pf.theta.take 1, Q ≠ 0) →
      bindingGame e (fun crs => if equ.verify e sch cp crs = .ok true then 1 else 0) ≤ 1 / Fintype.card F + 1 / Fintype.card G2) := by
  have hacc : ∀ {crs}, equ.verify e sch cp crs = .ok true → ∃ pf, cp.equ_proofs = [pf] ∧ equ.Equation e crs cp.xcoms.coms cp.ycoms.coms pf := by
    intro crs h
    obtain ⟨pf, h1, h2⟩ := C53_quad cp sch true equ h
    exact ⟨pf, h1, h2.mp rfl⟩
  constructor
  · rintro ⟨pf, hpf, P, hP, hne⟩
    by_cases hl : cp.equ_proofs = [pf]
    swap
    · refine (bindingGame_never (fun crs => equ.verify e sch cp crs = .ok true) fun crs hu hv h => hl ?_).trans (bound_nonneg _ _)
      obtain ⟨pf', h1, h2⟩ := hacc h
      rw [h1, List.mem_singleton] at hpf
      subst hpf
      exact h1
    have hpf' := hl
    obtain ⟨z', hz⟩ : ∃ z', pf.pi = P :: z' := by
      cases hz : pf.pi with
      | nil => simp [hz] at hP
      | cons a z' => rw [hz] at hP; simp only [List.take_succ_cons, List.take_zero, List.mem_singleton] at hP; exact ⟨z', by rw [hP]⟩
    refine tied1 he (fun crs => equ.verify e sch cp crs = .ok true) (P) (fun p2 a1 a2 t2 => equ.target • (⟨t2 • p2, t2 • a2 • p2⟩ + emb p2) - lin equ.a_consts cp.ycoms.coms) (fun _ _ _ _ => .inl hne) (fun p2 a1 a2 t2 =>
      tensor e (lin equ.b_consts cp.xcoms.coms) ((⟨t2 • p2, t2 • a2 • p2⟩ : Com G2) + emb p2) + (List.zipWith (fun x row => (List.zipWith (fun g y => g • tensor e x y) row cp.ycoms.coms).sum) cp.xcoms.coms equ.gamma).sum - (List.zipWith (tensor e) (pf.theta.take 1) [(⟨p2, a2 • p2⟩ : Com G2)]).sum) fun p1 p2 a1 a2 t1 t2 h => ?_
    obtain ⟨pf', hp1, heq⟩ := hacc h
    rw [hpf'] at hp1
    cases hp1
    obtain ⟨_, _, _, _, _, _, q0, q', r0, r', h1, h2, h3, h4, heq⟩ := heq
    cases h1
    cases h2
    have htk : pf.theta.take 1 = [r0] := by rw [h4]; rfl
    rw [hz] at h3
    cases h3
    rw [gsEquation, equLhs, zip_lin_left, zip_lin_right] at heq
    rw [htk]
    refine ⟨tensor e (emb p1) (lin equ.a_consts cp.ycoms.coms - equ.target • (⟨t2 • p2, t2 • a2 • p2⟩ + emb p2)), ?_, by simp [tensor, emb], by simp [tensor, emb]⟩
    simp only [crsOf, List.zipWith_cons_cons, List.zipWith_nil_left, List.sum_cons, List.sum_nil, tensor_fun, map_add, map_sub, map_smul,
      LinearMap.add_apply, LinearMap.sub_apply, LinearMap.smul_apply, smul_add, smul_sub] at heq ⊢
    rw [← sub_eq_zero] at heq ⊢
    refine neg_eq_zero.mp (Eq.trans ?_ heq)
    abel
  · rintro ⟨pf, hpf, Q, hQ, hne⟩
    by_cases hl : cp.equ_proofs = [pf]
    swap
    · refine (bindingGame_never (fun crs => equ.verify e sch cp crs = .ok true) fun crs hu hv h => hl ?_).trans (bound_nonneg _ _)
      obtain ⟨pf', h1, h2⟩ := hacc h
      rw [h1, List.mem_singleton] at hpf
      subst hpf
      exact h1
    have hpf' := hl
    obtain ⟨z', hz⟩ : ∃ z', pf.theta = Q :: z' := by
      cases hz : pf.theta with
      | nil => simp [hz] at hQ
      | cons a z' => rw [hz] at hQ; simp only [List.take_succ_cons, List.take_zero, List.mem_singleton] at hQ; exact ⟨z', by rw [hQ]⟩
    refine tied2 he (fun crs => equ.verify e sch cp crs = .ok true) (Q) (fun p1 a1 a2 t1 => equ.target • (⟨t1 • p1, t1 • a1 • p1⟩ + emb p1) - lin equ.b_consts cp.xcoms.coms) (fun _ _ _ _ => .inl hne) (fun p1 a1 a2 t1 =>
      tensor e ((⟨t1 • p1, t1 • a1 • p1⟩ : Com G1) + emb p1) (lin equ.a_consts cp.ycoms.coms) + (List.zipWith (fun x row => (List.zipWith (fun g y => g • tensor e x y) row cp.ycoms.coms).sum) cp.xcoms.coms equ.gamma).sum - (List.zipWith (tensor e) [(⟨p1, a1 • p1⟩ : Com G1)] (pf.pi.take 1)).sum) fun p1 p2 a1 a2 t1 t2 h => ?_
    obtain ⟨pf', hp1, heq⟩ := hacc h
    rw [hpf'] at hp1
    cases hp1
    obtain ⟨_, _, _, _, _, _, q0, q', r0, r', h1, h2, h3, h4, heq⟩ := heq
    cases h1
    cases h2
    have htk : pf.pi.take 1 = [q0] := by rw [h3]; rfl
    rw [hz] at h4
    cases h4
    rw [gsEquation, equLhs, zip_lin_left, zip_lin_right] at heq
    rw [htk]
    refine ⟨tensor e (lin equ.b_consts cp.xcoms.coms - equ.target • (⟨t1 • p1, t1 • a1 • p1⟩ + emb p1)) (emb p2), ?_, by simp [tensor, emb], by simp [tensor, emb]⟩
    simp only [crsOf, List.zipWith_cons_cons, List.zipWith_nil_left, List.sum_cons, List.sum_nil, tensor_fun, map_add, map_sub, map_smul,
      LinearMap.add_apply, LinearMap.sub_apply, LinearMap.smul_apply, smul_add, smul_sub] at heq ⊢
    rw [← sub_eq_zero] at heq ⊢
    refine neg_eq_zero.mp (Eq.trans ?_ heq)
    abel

/-- C87: the condition cannot be dropped: a PPE proof whose elements are all zero is treated alike under every CRS of the same sizes. -/
theorem C87_ppe_zero (equ : PPE F G1 G2 GT) (cp : CProof F G1 G2) (sch sch' : Scheduler) (crs crs' : CRS G1 G2 GT)
    (hu : crs'.u.length = crs.u.length) (hv : crs'.v.length = crs.v.length)
    (h : ∀ pf ∈ cp.equ_proofs, (∀ P ∈ pf.pi, P = 0) ∧ ∀ Q ∈ pf.theta, Q = 0) :
    SameOutcome (equ.verify e sch cp crs) (equ.verify e sch' cp crs') := by
  have hdom : (equ.verify e sch cp crs).Ok ↔ (equ.verify e sch' cp crs').Ok := by
    rw [C37_ppe, C37_ppe, hu, hv]
  have hz : ∀ pf ∈ cp.equ_proofs, ∀ crs'' : CRS G1 G2 GT, equ.Equation e crs'' cp.xcoms.coms cp.ycoms.coms pf ↔
      equLhs (tensor e) (equ.a_consts.map emb) cp.xcoms.coms (equ.b_consts.map emb) cp.ycoms.coms equ.gamma =
        ⟨0, 0, 0, equ.target⟩ := by
    intro pf hpf crs''
    have h1 : (List.zipWith (tensor e) crs''.u pf.pi).sum = 0 := List.sum_eq_zero fun X hX => by
      obtain ⟨i, hi, rfl⟩ := List.mem_iff_getElem.mp hX
      rw [List.getElem_zipWith, (h pf hpf).1 _ (List.getElem_mem _), tensor_eq, map_zero]
    have h2 : (List.zipWith (tensor e) pf.theta crs''.v).sum = 0 := List.sum_eq_zero fun X hX => by
      obtain ⟨i, hi, rfl⟩ := List.mem_iff_getElem.mp hX
      rw [List.getElem_zipWith, (h pf hpf).2 _ (List.getElem_mem _), tensor_eq, map_zero, LinearMap.zero_apply]
    rw [PPE.Equation, gsEquation, h1, h2, add_zero, add_zero]
  refine sameOutcome_of_bool hdom ⟨fun hr => ?_, fun hr => ?_⟩
  · obtain ⟨r, hr'⟩ := hdom.mp ⟨_, hr⟩
    obtain ⟨pf, hpf, h1⟩ := C53_ppe _ _ _ _ hr
    obtain ⟨pf', hpf', h2⟩ := C53_ppe _ _ _ _ hr'
    rw [hpf] at hpf'
    cases hpf'
    have hm : pf ∈ cp.equ_proofs := by simp [hpf]
    rw [hr', h2.mpr ((hz pf hm _).mpr ((hz pf hm _).mp (h1.mp rfl)))]
  · obtain ⟨r, hr'⟩ := hdom.mpr ⟨_, hr⟩
    obtain ⟨pf, hpf, h1⟩ := C53_ppe _ _ _ _ hr
    obtain ⟨pf', hpf', h2⟩ := C53_ppe _ _ _ _ hr'
    rw [hpf] at hpf'
    cases hpf'
    have hm : pf ∈ cp.equ_proofs := by simp [hpf]
    rw [hr', h2.mpr ((hz pf hm _).mpr ((hz pf hm _).mp (h1.mp rfl)))]

open Classical in
/-- An honest proof with a nonzero element: with a fresh CRS it is accepted with probability at most 2/7. -/
example : ∃ cp : CProof Ex.K Ex.K Ex.K, Ex.ppe7.verify Ex.e7 forwards cp Ex.crs7 = .ok true ∧
    bindingGame Ex.e7 (fun crs => if Ex.ppe7.verify Ex.e7 forwards cp crs = .ok true then 1 else 0) ≤ 2 / 7 := by
  obtain ⟨cp, rng', h, h'⟩ := C01_ppe_complete Ex.e7 Ex.ppe7 [2] [3, 4] Ex.crs7 (0 : Nat) (fun _ => forwards) forwards (by simp) (by simp)
    Ex.ppe7_dims rfl rfl Ex.ppe7_holds
  refine ⟨cp, h', ?_⟩
  have hne : ∃ pf ∈ cp.equ_proofs, ∃ P ∈ pf.pi, P ≠ 0 := by
    have : ∀ r : Res (CProof Ex.K Ex.K Ex.K × Nat), r = Ex.ppe7.commitAndProve (fun _ => forwards) [2] [3, 4] Ex.crs7 (0 : Nat) →
        ∀ cp rng', r = .ok (cp, rng') → ∃ pf ∈ cp.equ_proofs, ∃ P ∈ pf.pi, P ≠ 0 := by
      intro r hr cp rng' h
      subst hr
      cases h
      exact ⟨_, List.mem_singleton.mpr rfl, _, List.mem_cons_self, by decide⟩
    exact this _ rfl cp rng' h
  refine ((C87_ppe Ex.prime7 Ex.ppe7 cp forwards).1 hne).trans ?_
  rw [show Fintype.card Ex.K = 7 from ZMod.card 7]
  norm_num

/-! ### Instances -/

namespace Ex

example (sch : Scheduler) := (C87_msmeg1 prime7 msm1_7 msm1_7_msg sch).1 (by decide +kernel)
example (sch : Scheduler) := (C87_msmeg1 prime7 msm1_7 msm1_7_msg sch).2 (by decide +kernel)
example (sch : Scheduler) := (C87_msmeg2 prime7 msm2_7 msm2_7_msg sch).1 (by decide +kernel)
example (sch : Scheduler) := (C87_msmeg2 prime7 msm2_7 msm2_7_msg sch).2 (by decide +kernel)
example (sch : Scheduler) := (C87_quad prime7 quad7 quad7_msg sch).1 (by decide +kernel)
example (sch : Scheduler) := (C87_quad prime7 quad7 quad7_msg sch).2 (by decide +kernel)

/-- An accepted proof of a true equation whose proof elements are all zero. -/
example (sch : Scheduler) (crs : CRS K K K) (hu : crs.u.length = 2) (hv : crs.v.length = 2) :=
  C87_ppe_zero (e := e7) (⟨[0], [0], [[0]], 0⟩ : PPE K K K K)
    ⟨⟨[⟨1, 2⟩], []⟩, ⟨[⟨3, 4⟩], []⟩, [⟨[⟨0, 0⟩, ⟨0, 0⟩], [⟨0, 0⟩, ⟨0, 0⟩], .PairingProduct, []⟩]⟩ sch sch crs7 crs hu hv (by decide)
example : PPE.verify e7 seqSched (⟨[0], [0], [[0]], 0⟩ : PPE K K K K)
    ⟨⟨[⟨1, 2⟩], []⟩, ⟨[⟨3, 4⟩], []⟩, [⟨[⟨0, 0⟩, ⟨0, 0⟩], [⟨0, 0⟩, ⟨0, 0⟩], .PairingProduct, []⟩]⟩ crs7 = .ok true := by decide +kernel

end Ex

end GS
