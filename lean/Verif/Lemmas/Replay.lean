import Verif.Spec.Replay
import Verif.Lemmas.TiedEqu
import Verif.Lemmas.Tamper
import Verif.Lemmas.Accept

/-! Acceptance of two equations by one message, as a relation between commitments. -/

set_option linter.unusedSectionVars false
set_option linter.unusedVariables false

open scoped BigOperators

namespace GS
variable {F G1 G2 GT : Type} [Field F] [AddCommGroup G1] [Module F G1] [AddCommGroup G2] [Module F G2]
  [AddCommGroup GT] [Module F GT] {e : G1 →ₗ[F] G2 →ₗ[F] GT}

open Classical in
theorem chance_le [Fintype F] {α : Type} {N m n p q : Nat} (hN : N = m * p + n * q + q * p)
    {call : List F → Res (α × List F)} {P : α → Prop} (Q : Rands F m n p q → Prop)
    (h : ∀ (r : Rands F m n p q) a rest, call (flat r) = .ok (a, rest) → P a → Q r)
    (hQ : (Finset.univ.filter Q).card * Fintype.card F ≤ 2 * Fintype.card (Rands F m n p q)) :
    chance N call P ≤ 2 / Fintype.card F := by
  obtain ⟨E, hE⟩ := exists_tapeEquiv (F := F) hN
  have h1 : chance N call P ≤ 𝔼 r : Rands F m n p q, if Q r then (1 : ℝ) else 0 := by
    rw [chance, ← Fintype.expect_equiv E (fun r => if ∃ a rest, call (List.ofFn (E r)) = .ok (a, rest) ∧ P a then (1 : ℝ) else 0) _
      (fun r => rfl)]
    refine Finset.expect_le_expect fun r _ => ?_
    rw [hE]
    by_cases hr : ∃ a rest, call (flat r) = .ok (a, rest) ∧ P a
    · obtain ⟨a, rest, ha, hP⟩ := hr
      rw [if_pos ⟨a, rest, ha, hP⟩, if_pos (h r a rest ha hP)]
    · rw [if_neg hr]
      split_ifs <;> norm_num
  refine h1.trans ?_
  rw [Fintype.expect_eq_sum_div_card, Finset.sum_boole]
  have hF : (0 : ℝ) < Fintype.card F := by exact_mod_cast Fintype.card_pos
  have hR : (0 : ℝ) < Fintype.card (Rands F m n p q) := by exact_mod_cast Fintype.card_pos
  rw [div_le_div_iff₀ hR hF]
  exact_mod_cast hQ

theorem pairL_ne_zero (he : PrimeGroups e) {c : Com G1} {d : Com G2} (hc : c ≠ 0) (hd : d ≠ 0) : ComT.pairL e c d ≠ 0 :=
  fun h => ((tensor_eq_zero he c d).mp h).elim hc hd

/-- Two equations accepted for the same commitments and the same proof: a relation between the commitments. -/
theorem core_relation [DecidableEq GT] {sch sch' : Scheduler} {m n : Nat} {a a' : Fin n → Com G1} {b b' : Fin m → Com G2}
    {γ γ' : Fin m → Fin n → F} {c : Fin m → Com G1} {d : Fin n → Com G2} {t t' : ComT GT} {p1 p2 : Res (ComT GT)}
    {la la' : Res (List (Com G1))} {lb lb' : Res (List (Com G2))} {lt lt' : Res (ComT GT)}
    (ha : ∀ l, la = .ok l → l = List.ofFn a) (ha' : ∀ l, la' = .ok l → l = List.ofFn a')
    (hb : ∀ l, lb = .ok l → l = List.ofFn b) (hb' : ∀ l, lb' = .ok l → l = List.ofFn b')
    (ht : ∀ l, lt = .ok l → l = t) (ht' : ∀ l, lt' = .ok l → l = t')
    (h : verifyCore e sch (matOf γ) la lb (List.ofFn c) (List.ofFn d) lt p1 p2 = .ok true)
    (h' : verifyCore e sch' (matOf γ') la' lb' (List.ofFn c) (List.ofFn d) lt' p1 p2 = .ok true) :
    lhsOf (ComT.pairL e) (a' - a) (b' - b) (γ' - γ) c d = t' - t := by
  obtain ⟨_, _, _, q1, q2, h1, h2, h3, h4, h5, -, -, -, h6⟩ := verifyCore_iff.mp h
  obtain ⟨_, _, _, q1', q2', h1', h2', h3', h4', h5', -, -, -, h6'⟩ := verifyCore_iff.mp h'
  obtain rfl : q1 = q1' := by simpa [h4] using h4'
  obtain rfl : q2 = q2' := by simpa [h5] using h5'
  have k := of_decide_eq_true h6.symm
  have k' := of_decide_eq_true h6'.symm
  rw [ha _ h1, hb _ h2, ht _ h3, equLhs_ofFn] at k
  rw [ha' _ h1', hb' _ h2', ht' _ h3', equLhs_ofFn] at k'
  have hp : ∀ (x : Com G1) (y : Com G2), ComT.pairing e x y = ComT.pairL e x y := fun _ _ => rfl
  simp only [hp] at k k'
  have := congrArg₂ (· - ·) k' k
  rw [show t' + q1 + q2 - (t + q1 + q2) = t' - t by abel] at this
  rw [← this]
  simp only [lhsOf, Pi.sub_apply, map_sub, LinearMap.sub_apply, sub_smul, Finset.sum_sub_distrib]
  abel

theorem scalar_map1 {a : List (Com G1)} {crs : CRS G1 G2 GT} {u0 u1 : Com G1} {u' : List (Com G1)} {n : Nat} {x : Fin n → F}
    (hu : crs.u = u0 :: u1 :: u') (h : Com1.batchScalarLinearMap (List.ofFn x) crs = .ok a) :
    a = List.ofFn fun i => x i • (u1 + ⟨0, crs.g1_gen⟩) := by
  rw [batchScalarLinearMap1_eq hu h, List.map_ofFn]; rfl

theorem scalar_map2 {a : List (Com G2)} {crs : CRS G1 G2 GT} {u0 u1 : Com G2} {u' : List (Com G2)} {n : Nat} {x : Fin n → F}
    (hu : crs.v = u0 :: u1 :: u') (h : Com2.batchScalarLinearMap (List.ofFn x) crs = .ok a) :
    a = List.ofFn fun i => x i • (u1 + ⟨0, crs.g2_gen⟩) := by
  rw [batchScalarLinearMap2_eq hu h, List.map_ofFn]; rfl

section
variable [Fintype F] [DecidableEq GT] {crs : CRS G1 G2 GT} {m n : Nat}

theorem smul_inj_fun {G : Type} [AddCommGroup G] [Module F G] {w : G} (hw : w ≠ 0) {k : Nat} {a a' : Fin k → F}
    (h : (fun i => a' i • w) - (fun i => a i • w) = 0) : a' = a := by
  funext i
  have := congrFun (sub_eq_zero.mp h) i
  have h2 : (a' i - a i) • w = 0 := by rw [sub_smul, this, sub_self]
  exact sub_eq_zero.mp ((smul_eq_zero.mp h2).resolve_right hw)

theorem emb_inj_fun {G : Type} [AddCommGroup G] {k : Nat} {a a' : Fin k → G}
    (h : (fun i => (⟨0, a' i⟩ : Com G)) - (fun i => (⟨0, a i⟩ : Com G)) = 0) : a' = a := by
  funext i
  exact congrArg Com.c1 (congrFun (sub_eq_zero.mp h) i)

end
end GS
