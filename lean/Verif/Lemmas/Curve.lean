import Verif.Spec.Curve
import Verif.Props.Bls
import Verif.Props.EncodedMessage
import Verif.Props.Message
import Mathlib.GroupTheory.Perm.Cycle.Type

/-! # Lemmas about points and messages of points -/

set_option linter.unusedSectionVars false

namespace GS
variable {B : Type} [Field B] [DecidableEq B] {E : SWCurve B} {r : Nat}

theorem SWCurve.curve_equation (x y : B) : E.curve.Equation x y ↔ y * y = x * x * x + E.a * x + E.b := by
  rw [WeierstrassCurve.Affine.equation_iff]
  simp only [SWCurve.curve]
  constructor
  · intro h; linear_combination h
  · intro h; linear_combination h

theorem SWCurve.curve_delta : E.curve.Δ = -(16 * (4 * E.a ^ 3 + 27 * E.b ^ 2)) := by
  simp only [SWCurve.curve, WeierstrassCurve.Δ, WeierstrassCurve.b₂, WeierstrassCurve.b₄, WeierstrassCurve.b₆, WeierstrassCurve.b₈]
  ring

theorem SWCurve.nonsingular (h : E.Tests r) {x y : B} (hxy : y * y = x * x * x + E.a * x + E.b) : E.curve.Nonsingular x y :=
  (E.curve.equation_iff_nonsingular_of_Δ_ne_zero (by rw [curve_delta, neg_ne_zero]; exact h.smooth)).mp
    ((curve_equation x y).mpr hxy)

theorem SWCurve.coords_injective : Function.Injective E.coords := by
  rintro (_ | ⟨x, y, h⟩) (_ | ⟨x', y', h'⟩) he
  · rfl
  · exact absurd (congrArg Affine.infinity he) (by simp [SWCurve.coords, Affine.identity])
  · exact absurd (congrArg Affine.infinity he) (by simp [SWCurve.coords, Affine.identity])
  · simp only [SWCurve.coords, Affine.mk.injEq, and_true] at he
    obtain ⟨rfl, rfl⟩ := he
    rfl

theorem SWCurve.proper_coords (h : E.Tests r) (P : Affine B) :
    (P = Affine.identity ∨ (P.infinity = false ∧ E.onCurve P = true)) ↔ ∃ p, E.coords p = P := by
  constructor
  · rintro (rfl | ⟨h0, h1⟩)
    · exact ⟨.zero, rfl⟩
    · obtain ⟨x, y, i⟩ := P
      simp only at h0
      subst h0
      simp only [SWCurve.onCurve, Bool.false_or, SWCurve.rhs] at h1
      exact ⟨.some x y (nonsingular h (of_decide_eq_true h1)), rfl⟩
  · rintro ⟨_ | ⟨x, y, h'⟩, rfl⟩
    · exact .inl rfl
    · refine .inr ⟨rfl, ?_⟩
      simp only [SWCurve.onCurve, SWCurve.coords, Bool.false_or, SWCurve.rhs]
      exact decide_eq_true ((curve_equation x y).mp h'.1)

theorem SWCurve.inSubgroup_rep (h : E.Tests r) (P : Affine B) :
    ((P = Affine.identity ∨ (P.infinity = false ∧ E.onCurve P = true)) ∧ E.inSubgroup P = true) ↔ ∃ x, E.rep r x = P := by
  rw [proper_coords h]
  constructor
  · rintro ⟨⟨p, rfl⟩, hp⟩
    exact ⟨⟨p, (h.test p).mp hp⟩, rfl⟩
  · rintro ⟨p, rfl⟩
    exact ⟨⟨p.1, rfl⟩, (h.test p.1).mpr p.2⟩

theorem SWCurve.onCurve_coords (h : E.Tests r) (p : E.curve.Point) : E.onCurve (E.coords p) = true := by
  rcases (proper_coords h _).mpr ⟨p, rfl⟩ with h0 | h0
  · rw [h0]; rfl
  · exact h0.2

theorem SWCurve.rep_injective : Function.Injective (E.rep r) := fun _ _ h => Subtype.ext (coords_injective h)

theorem SWCurve.check_rep (h : E.Tests r) (x : E.torsion r) : E.check (E.rep r x) = .ok () := by
  unfold SWCurve.check
  rw [SWCurve.rep, onCurve_coords h, (h.test x.1).mpr x.2]
  rfl

instance [Finite B] : Finite (Affine B) :=
  Finite.of_injective (fun P : Affine B => (P.x, P.y, P.infinity)) fun ⟨_, _, _⟩ ⟨_, _, _⟩ h => by simpa using h

instance [Finite B] : Finite E.curve.Point := Finite.of_injective E.coords SWCurve.coords_injective

theorem card_killed {A : Type} [AddCommGroup A] [Finite A] [hr : Fact r.Prime] {h : Nat} (hh : ¬ r ∣ h) (hA : Nat.card A = r * h) :
    Nat.card (nsmulAddMonoidHom (α := A) r).ker = r := by
  obtain ⟨x, hx⟩ := exists_prime_addOrderOf_dvd_card' (G := A) r (hA ▸ Dvd.intro _ rfl)
  have hd : r ∣ Nat.card (nsmulAddMonoidHom (α := A) r).ker := by
    have hx' : x ∈ (nsmulAddMonoidHom (α := A) r).ker := by
      show r • x = 0
      rw [← hx]; exact addOrderOf_nsmul_eq_zero x
    have : addOrderOf (⟨x, hx'⟩ : (nsmulAddMonoidHom (α := A) r).ker) = r :=
      (AddSubgroup.addOrderOf_coe (⟨x, hx'⟩ : (nsmulAddMonoidHom (α := A) r).ker)).symm.trans hx
    exact this.symm.dvd.trans (addOrderOf_dvd_natCard _)
  have hpow : ∀ {q : Nat}, q.Prime → q ∣ Nat.card (nsmulAddMonoidHom (α := A) r).ker → q = r := by
    intro q hq hqd
    have : Fact q.Prime := ⟨hq⟩
    obtain ⟨y, hy⟩ := exists_prime_addOrderOf_dvd_card' q hqd
    have : addOrderOf y ∣ r := addOrderOf_dvd_of_nsmul_eq_zero (Subtype.ext y.2)
    rw [hy] at this
    exact ((Nat.prime_dvd_prime_iff_eq hq hr.out).mp this)
  have hk := Nat.eq_prime_pow_of_unique_prime_dvd (Nat.card_pos (α := (nsmulAddMonoidHom (α := A) r).ker)).ne' hpow
  generalize Nat.primeFactorsList (Nat.card (nsmulAddMonoidHom (α := A) r).ker) = l at hk
  have hdvd : Nat.card (nsmulAddMonoidHom (α := A) r).ker ∣ r * h := hA ▸ AddSubgroup.card_addSubgroup_dvd_card _
  rw [hk] at hd hdvd ⊢
  rcases hl : l.length with _ | _ | k
  · rw [hl, pow_zero] at hd
    exact absurd (Nat.dvd_one.mp hd) hr.out.one_lt.ne'
  · rw [pow_one]
  · rw [hl, pow_succ, pow_succ] at hdvd
    exact absurd (Nat.dvd_of_mul_dvd_mul_left hr.out.pos ((Dvd.intro_left (r ^ k) (by ring)).trans hdvd)) hh

/-- The points of the curve are the proper representations. -/
noncomputable def SWCurve.points (h : E.Tests r) : E.curve.Point ≃ {P : Affine B // E.proper P = true} := Equiv.ofBijective
  (fun p => ⟨E.coords p, (SWCurve.proper_iff _).mpr ((SWCurve.proper_coords h _).mpr ⟨p, rfl⟩)⟩)
  ⟨fun _ _ hpq => SWCurve.coords_injective (congrArg Subtype.val hpq), fun ⟨P, hP⟩ => by
    obtain ⟨p, hp⟩ := (SWCurve.proper_coords h P).mp ((SWCurve.proper_iff P).mp hP)
    exact ⟨p, Subtype.ext hp⟩⟩

/-- The number of points is one more than that of the solutions of the equation. -/
theorem SWCurve.card_points [Fintype B] (h : E.Tests r) :
    Nat.card E.curve.Point = Fintype.card {a : B × B // a.2 * a.2 = a.1 * a.1 * a.1 + E.a * a.1 + E.b} + 1 := by
  rw [← Fintype.card_option, ← Nat.card_eq_fintype_card]
  exact Nat.card_congr {
    toFun := fun | .zero => none | .some x y h => some ⟨(x, y), (curve_equation x y).mp h.1⟩
    invFun := fun | none => .zero | some a => .some a.1.1 a.1.2 (nonsingular h a.2)
    left_inv := fun p => by rcases p with _ | ⟨x, y, h⟩ <;> rfl
    right_inv := fun a => by rcases a with _ | ⟨⟨x, y⟩, h⟩ <;> rfl }

variable {F H1 H2 R1 R2 GT : Type} [Field F] {cF : Codec F} {c1 : Codec R1} {c2 : Codec R2} {j1 : H1 → R1} {j2 : H2 → R2}

theorem elems_rep {pF : F → Prop} (hF : ∀ a, pF a) {p1 : R1 → Prop} {p2 : R2 → Prop} (h1 : ∀ x, p1 (j1 x)) (h2 : ∀ x, p2 (j2 x))
    (cp : CProof F H1 H2) : (cp.on j1 j2).Elems pF p1 p2 := by
  simp only [CProof.Elems, Commit.Elems, EquProof.Elems, Com.Elems, CProof.on, Commit.on, EquProof.on, Com.on, List.mem_map,
    forall_exists_index, and_imp, forall_apply_eq_imp_iff₂, h1, h2, hF, implies_true, and_self]

theorem CProof.on_inj (h1 : Function.Injective j1) (h2 : Function.Injective j2) {cp cp' : CProof F H1 H2}
    (h : cp.on j1 j2 = cp'.on j1 j2) : cp = cp' := by
  have c1 : Function.Injective (Com.on j1) := fun a b hab => by
    obtain ⟨a0, a1⟩ := a; obtain ⟨b0, b1⟩ := b
    simp only [Com.on, Com.mk.injEq] at hab
    rw [h1 hab.1, h1 hab.2]
  have c2 : Function.Injective (Com.on j2) := fun a b hab => by
    obtain ⟨a0, a1⟩ := a; obtain ⟨b0, b1⟩ := b
    simp only [Com.on, Com.mk.injEq] at hab
    rw [h2 hab.1, h2 hab.2]
  have c3 : Function.Injective (EquProof.on j1 j2 : EquProof F H1 H2 → _) := fun a b hab => by
    obtain ⟨a0, a1, a2, a3⟩ := a; obtain ⟨b0, b1, b2, b3⟩ := b
    simp only [EquProof.on, EquProof.mk.injEq] at hab
    rw [c2.list_map hab.1, c1.list_map hab.2.1, hab.2.2.1, hab.2.2.2]
  obtain ⟨⟨a, a'⟩, ⟨b, b'⟩, p⟩ := cp
  obtain ⟨⟨d, d'⟩, ⟨f, f'⟩, q⟩ := cp'
  simp only [CProof.on, Commit.on, CProof.mk.injEq, Commit.mk.injEq] at h
  rw [c1.list_map h.1.1, h.1.2, c2.list_map h.2.1.1, h.2.1.2, c3.list_map h.2.2]

/-- With validation exactly the representations of messages over the groups are read. -/
theorem read_inside (hF : cF.Lawful) (hFv : ∀ a, cF.Valid a) (h1 : Represents c1 j1) (h2 : Represents c2 j2) (m : Compress)
    (bs rest : Bytes) (msg : CProof F R1 R2) :
    (CProof.codec cF c1 c2).de m .Yes bs = .ok (msg, rest) ↔
      (CProof.codec cF c1 c2).de m .No bs = .ok (msg, rest) ∧ ∃ cp : CProof F H1 H2, msg = cp.on j1 j2 := by
  constructor
  · intro h
    classical
    have hno : (CProof.codec cF c1 c2).de m .No bs = .ok (msg, rest) := by
      obtain ⟨used, e, hin, -⟩ := (C109_message hF.orderly h1.orderly h2.orderly _ _ _ _ _).mp h
      exact (C109_message hF.orderly h1.orderly h2.orderly _ _ _ _ _).mpr ⟨used, e, hin, by simp⟩
    refine ⟨hno, ?_⟩
    obtain ⟨cp, rfl⟩ := (C110_only_message (p1 := fun a => decide (∃ x, j1 x = a)) (p2 := fun a => decide (∃ x, j2 x = a))
      hF.orderly h1.orderly h2.orderly m .Yes bs rest).2 (fun m bs x rest hd => decide_eq_true (h1.inside m bs x rest hd))
      (fun m bs x rest hd => decide_eq_true (h2.inside m bs x rest hd)) msg h
    refine ⟨cp.on (fun a => (of_decide_eq_true a.2).choose) (fun a => (of_decide_eq_true a.2).choose), ?_⟩
    have k1 : ∀ a : {a // decide (∃ x, j1 x = a) = true}, j1 (of_decide_eq_true a.2).choose = a.1 := fun a => (of_decide_eq_true a.2).choose_spec
    have k2 : ∀ a : {a // decide (∃ x, j2 x = a) = true}, j2 (of_decide_eq_true a.2).choose = a.1 := fun a => (of_decide_eq_true a.2).choose_spec
    obtain ⟨⟨a, a'⟩, ⟨b, b'⟩, p⟩ := cp
    simp only [CProof.on, Commit.on, List.map_map, CProof.mk.injEq, Commit.mk.injEq, and_true]
    refine ⟨?_, ?_, ?_⟩
    · exact List.map_congr_left fun c _ => by simp [Com.on, k1]
    · exact List.map_congr_left fun c _ => by simp [Com.on, k2]
    · refine List.map_congr_left fun c _ => ?_
      simp only [EquProof.on, Function.comp, List.map_map, EquProof.mk.injEq, and_true]
      exact ⟨List.map_congr_left fun c _ => by simp [Com.on, k2], List.map_congr_left fun c _ => by simp [Com.on, k1]⟩
  · rintro ⟨h, cp, rfl⟩
    obtain ⟨used, e, hin, -⟩ := (C109_message hF.orderly h1.orderly h2.orderly _ _ _ _ _).mp h
    exact (C109_message hF.orderly h1.orderly h2.orderly _ _ _ _ _).mpr ⟨used, e, hin, fun _ => elems_rep hFv h1.valid h2.valid cp⟩

end GS
