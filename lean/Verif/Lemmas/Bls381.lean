import Verif.Spec.Bls381
import Verif.Props.Sampled

/-! # Lemmas about the groups of BLS12-381 -/

set_option linter.unusedSectionVars false

namespace GS
open WeierstrassCurve.Affine

theorem byCofactor_coords {B : Type} [Field B] [DecidableEq B] [Finite B] {E : SWCurve B} {r k : Nat} (h : Nat.card E.curve.Point = r * k)
    (p : E.curve.Point) : (E.byCofactor r k (E.coords p)).1 = k • p := by
  have hk : r • (k • p) = 0 := by rw [← mul_nsmul', ← h]; exact card_nsmul_eq_zero'
  have hex : ∃ q : E.torsion r, ∃ p', E.coords p' = E.coords p ∧ q.1 = k • p' := ⟨⟨k • p, hk⟩, p, rfl, rfl⟩
  rw [SWCurve.byCofactor, dif_pos hex]
  obtain ⟨p', h1, h2⟩ := hex.choose_spec
  rw [h2, SWCurve.coords_injective h1]

/-- A curve with an odd number of points. -/
theorem noOrderTwo_of_odd {B : Type} [Field B] [DecidableEq B] [Finite B] {E : SWCurve B} {r : Nat} (h : E.Tests r)
    (hodd : Nat.card E.curve.Point % 2 = 1) : E.NoOrderTwo := by
  intro x y hxy hy
  have hn := SWCurve.nonsingular h hxy
  have h2 : (2 : Nat) • (.some _ _ hn : E.curve.Point) = 0 := by
    rw [two_nsmul]
    exact Point.add_self_of_Y_eq (by simpa [WeierstrassCurve.Affine.negY, SWCurve.curve] using hy)
  have hd : addOrderOf (.some _ _ hn : E.curve.Point) ∣ Nat.gcd 2 (Nat.card E.curve.Point) :=
    Nat.dvd_gcd (addOrderOf_dvd_of_nsmul_eq_zero h2) (addOrderOf_dvd_natCard _)
  rw [show Nat.gcd 2 (Nat.card E.curve.Point) = 1 by rw [Nat.gcd_rec, hodd]; simp] at hd
  have := AddMonoid.addOrderOf_eq_one_iff.mp (Nat.dvd_one.mp hd)
  cases this

theorem leFq_total (x y : ZMod p381) : leFq x y = true ∨ leFq y x = true := by
  simp only [leFq, decide_eq_true_iff]; omega

theorem leFq_antisymm {x y : ZMod p381} (h1 : leFq x y = true) (h2 : leFq y x = true) : x = y := by
  simp only [leFq, decide_eq_true_iff] at h1 h2
  exact ZMod.val_injective _ (by omega)

section
variable {K : Type} [Field K] [DecidableEq K] [Fintype K] (hc : Fintype.card K = p381) (le : K → K → Bool)

theorem g1Curve_coords (p : (g1Curve le).curve.Point) : (g1Curve le).coords p = coordsOf (b := (4 : K)) p := by
  cases p <;> rfl

include hc

theorem g1Curve_tests : (g1Curve le).Tests r381 where
  smooth := cubic_smooth_iff (p381_two (fq_zero hc)) (p381_three (fq_zero hc)) (four_ne (fq_zero hc))
  test p := by
    rw [g1Curve_coords]
    exact inG1_iff hc p

theorem g1Curve_card : Nat.card (g1Curve le).curve.Point = r381 * cofactor1 := g1_card hc

variable {le} (ht : ∀ x y, le x y = true ∨ le y x = true) (ha : ∀ {x y}, le x y = true → le y x = true → x = y)
include ht ha

theorem g1Curve_lawful : (g1Curve le).Lawful where
  root _ _ h := sqrtFq_some h
  complete v r h hr := by
    obtain ⟨s, hs⟩ := sqrtFq_sq hc r
    rw [hr] at hs
    exact absurd (h.symm.trans hs) (by simp)
  total y := ht y (-y)
  antisymm y := ha
  identity := by
    show inG1 (K := K) Affine.identity = true
    exact onOwn_zero _ rfl

omit hc ha in
theorem leFq2_total (x y : Fq2 K) : leFq2 le x y = true ∨ leFq2 le y x = true := by
  unfold leFq2
  by_cases h : x.im = y.im
  · rw [if_pos h, if_pos h.symm]; exact ht _ _
  · rw [if_neg h, if_neg (Ne.symm h)]; exact ht _ _

omit hc ht in
theorem leFq2_antisymm {x y : Fq2 K} (h1 : leFq2 le x y = true) (h2 : leFq2 le y x = true) : x = y := by
  unfold leFq2 at h1 h2
  by_cases h : x.im = y.im
  · rw [if_pos h] at h1
    rw [if_pos h.symm] at h2
    exact QuadraticAlgebra.ext (ha h1 h2) h
  · rw [if_neg h] at h1
    rw [if_neg (Ne.symm h)] at h2
    exact absurd (ha h1 h2) h

omit ht ha
variable [Fact (∀ r : K, r ^ 2 ≠ -1 + 0 * r)]

omit hc in
theorem g2Curve_coords (p : (g2Curve le).curve.Point) : (g2Curve le).coords p = coordsOf (b := (⟨4, 4⟩ : Fq2 K)) p := by
  cases p <;> rfl

variable (le) in
theorem g2Curve_tests : (g2Curve le).Tests r381 where
  smooth := cubic_smooth_iff (p381_two (fq2_zero (fq_zero hc))) (p381_three (fq2_zero (fq_zero hc)))
    (by rw [b2_eq]; exact four2_ne fq2u_sq (fq2_zero (fq_zero hc)))
  test p := by
    rw [g2Curve_coords]
    exact inG2_iff hc p

variable (le) in
theorem g2Curve_card : Nat.card (g2Curve le).curve.Point = r381 * cofactor2 := g2_card' hc

include ht ha in
theorem g2Curve_lawful : (g2Curve le).Lawful where
  root _ _ h := sqrtFq2_root hc h
  complete v r h hr := by
    obtain ⟨s, hs⟩ := sqrtFq2_sq hc r
    have hr' : (show Fq2 K from r) * r = v := hr
    rw [hr'] at hs
    exact absurd (h.symm.trans hs) (by simp)
  total y := leFq2_total ht y (-y)
  antisymm y := leFq2_antisymm ha
  identity := by
    show inG2 (K := K) Affine.identity = true
    exact onOwn_zero _ rfl

variable (le) in
theorem g1Curve_generator : ∃ g, r381 • g = 0 ∧ g ≠ 0 ∧ (g1Curve le).coords g = ⟨g1x, g1y, false⟩ :=
  ⟨g1Point (fq_zero hc), g1Point_killed (fq_zero hc), g1Point_ne (fq_zero hc), rfl⟩

variable (le) in
theorem g2Curve_generator : ∃ g, r381 • g = 0 ∧ g ≠ 0 ∧ (g2Curve le).coords g = ⟨toFq2 g2x, toFq2 g2y, false⟩ := by
  have hp := fq2_zero (fq_zero hc)
  obtain ⟨b, hb, hb'⟩ : ∃ b : Fq2 K, b = ⟨4, 4⟩ ∧ b = evPair fq2u (4, 4) := ⟨_, rfl, b2_eq⟩
  suffices h : ∃ g : (cubic b).Point, r381 • g = 0 ∧ g ≠ 0 ∧ coordsOf g = ⟨toFq2 g2x, toFq2 g2y, false⟩ by
    rw [hb] at h
    obtain ⟨g, h1, h2, h3⟩ := h
    exact ⟨g, h1, h2, (g2Curve_coords (le := le) g).trans h3⟩
  rw [hb', toFq2_eq, toFq2_eq]
  exact ⟨g2Point hp fq2u_sq, g2Point_killed hp fq2u_sq, g2Point_ne hp fq2u_sq, rfl⟩

end

theorem card_fq : Fintype.card (ZMod p381) = p381 := ZMod.card p381

theorem blsG1_tests : blsG1.Tests r381 := g1Curve_tests card_fq leFq
theorem blsG2_tests : blsG2.Tests r381 := g2Curve_tests card_fq leFq
theorem blsG1_card : Nat.card blsG1.curve.Point = r381 * cofactor1 := g1Curve_card card_fq leFq
theorem blsG2_card : Nat.card blsG2.curve.Point = r381 * cofactor2 := g2Curve_card card_fq leFq
theorem blsG1_lawful : blsG1.Lawful := g1Curve_lawful card_fq leFq_total leFq_antisymm
theorem blsG2_lawful : blsG2.Lawful := g2Curve_lawful card_fq leFq_total leFq_antisymm

theorem cofactors_odd : r381 * cofactor1 % 2 = 1 ∧ r381 * cofactor2 % 2 = 1 := by decide +kernel

theorem blsG1_noOrderTwo : blsG1.NoOrderTwo := noOrderTwo_of_odd blsG1_tests (by rw [blsG1_card]; exact cofactors_odd.1)
theorem blsG2_noOrderTwo : blsG2.NoOrderTwo := noOrderTwo_of_odd blsG2_tests (by rw [blsG2_card]; exact cofactors_odd.2)

theorem blsG1_generator : ∃ g, r381 • g = 0 ∧ g ≠ 0 ∧ blsG1.coords g = ⟨g1x, g1y, false⟩ := g1Curve_generator card_fq leFq
theorem blsG2_generator : ∃ g, r381 • g = 0 ∧ g ≠ 0 ∧ blsG2.coords g = ⟨toFq2 g2x, toFq2 g2y, false⟩ := g2Curve_generator card_fq leFq

noncomputable instance : Fintype (blsG1.torsion r381) := Fintype.ofFinite _
noncomputable instance : Fintype (blsG2.torsion r381) := Fintype.ofFinite _

/-- The subgroups have prime order. -/
theorem blsPrime {GT : Type} [AddCommGroup GT] [Module (ZMod r381) GT] {e : blsG1.torsion r381 →ₗ[ZMod r381] blsG2.torsion r381 →ₗ[ZMod r381] GT}
    (he : e ≠ 0) : PrimeGroups e := by
  have hx : ∃ x y, e x y ≠ 0 := by
    by_contra hn
    refine he (LinearMap.ext fun x => LinearMap.ext fun y => ?_)
    by_contra hxy
    exact hn ⟨x, y, hxy⟩
  obtain ⟨x, y, hxy⟩ := hx
  obtain ⟨e', h1, h2⟩ := C118_prime (C118_order g1_bound.2.2.2.2.2 blsG1_card).1 (C118_order g2_cofactor blsG2_card).1 (fun x y => e x y)
    (fun x x' y => by rw [map_add, LinearMap.add_apply]) (fun x y y' => map_add _ _ _) x y hxy
  have : e' = e := LinearMap.ext fun x => LinearMap.ext fun y => h1 x y
  exact this ▸ h2

/-- Codecs that check what they read with validation. -/
theorem strict_represents {B : Type} [Field B] [DecidableEq B] {E : SWCurve B} {r : Nat} (h : E.Tests r) (hE : E.Lawful) {c : BeField B} (hc : c.Lawful) :
    Represents (E.blsCodec c).strict (E.rep r) := by
  have o := (C114_only hE hc).1
  have i := (C114_only hE hc).2.2
  refine ⟨o, SWCurve.rep_injective, fun m x => ?_, fun x => SWCurve.check_rep h x, fun m bs P rest hd => ?_⟩
  · have hp := ((SWCurve.inSubgroup_rep h _).mpr ⟨x, rfl⟩).1
    obtain ⟨-, k, k'⟩ := C114_points (c := c) hE hc
    cases m
    · exact (k _).mpr hp
    · exact (k' _).mpr (hp.imp_right And.left)
  · exact (SWCurve.inSubgroup_rep h P).mp ⟨(SWCurve.proper_iff P).mp (i m .Yes bs P rest (.inr rfl) hd),
      ((bls_valid (c := c) P).mp ((o.validate m bs P rest).mp hd).2).2⟩

/-- Messages consist of vectors of points. -/
theorem message_strict {F B B' : Type} [Field B] [DecidableEq B] [Field B'] [DecidableEq B'] (E : SWCurve B) (c : BeField B) (E' : SWCurve B') (c' : BeField B')
    (cF : Codec F) : CProof.codec cF (E.blsCodec c) (E'.blsCodec c') = CProof.codec cF (E.blsCodec c).strict (E'.blsCodec c').strict := by
  rw [CProof.codec, CProof.codec, (C114_vectors (E := E) (c := c) (E' := E') (c' := c') cF cF).1, (C114_vectors (E := E) (c := c) (E' := E') (c' := c') cF cF).2.1,
    (C114_vectors (E := E') (c := c') (E' := E) (c' := c) cF cF).1]

theorem receive_strict {F B B' : Type} [Field B] [DecidableEq B] [Field B'] [DecidableEq B'] (E : SWCurve B) (c : BeField B) (E' : SWCurve B') (c' : BeField B')
    (cF : Codec F) : receive cF (E.blsCodec c) (E'.blsCodec c') = receive cF (E.blsCodec c).strict (E'.blsCodec c').strict := by
  funext m v bs verify
  rw [receive, receive, message_strict]

theorem blsFq_lawful : blsFq.Lawful := (C114_fp (by decide +kernel)).1

theorem beFq2_lawful {K : Type} [Field K] {c : BeField K} (h : c.Lawful) :
    (beQuad c (fun a => (⟨a.1, a.2⟩ : Fq2 K)) (fun z => (z.re, z.im))).Lawful :=
  (C114_quad h (fun a => (⟨a.1, a.2⟩ : Fq2 K)) (fun z => (z.re, z.im)) (fun _ => rfl) (fun _ => rfl) rfl).1

theorem blsFq2_lawful : blsFq2.Lawful := beFq2_lawful blsFq_lawful

theorem blsFr_lawful : blsFr.Lawful := (C110_fp (by decide +kernel) (by decide +kernel)).2.1

theorem blsFr_valid (a : ZMod r381) : blsFr.Valid a := rfl

/-! ### Points of other curves -/

section
variable {K : Type} [Field K] [DecidableEq K] {s : K} (hs : s ≠ 0)

/-- `(x, y) ↦ (s² x, s³ y)`. -/
noncomputable def scale (b : K) : (cubic b).Point →+ (cubic (s ^ 6 * b)).Point := twist (RingHom.id K) s hs b rfl

theorem scale_some {b x y : K} (h : (cubic b).Nonsingular x y) : ∃ h', scale hs b (.some x y h) = .some (s ^ 2 * x) (s ^ 3 * y) h' :=
  ⟨_, twist_some (RingHom.id K) s hs b rfl h⟩

theorem sameAs_scale {b : K} (P : (cubic b).Point) (x y : K) : sameAs (scale hs b P) (s ^ 2 * x) (s ^ 3 * y) = sameAs P x y := by
  rcases P with _ | ⟨x', y', h⟩
  · rfl
  · obtain ⟨h', e⟩ := scale_some hs h
    rw [e, sameAs, sameAs, decide_eq_decide, mul_right_inj' (pow_ne_zero 2 hs), mul_right_inj' (pow_ne_zero 3 hs)]

theorem onOwn_scale (test : ∀ b : K, K → K → (cubic b).Point → Bool) (x y : K)
    (ht : ∀ b P, test (s ^ 6 * b) (s ^ 2 * x) (s ^ 3 * y) (scale hs b P) = test b x y P) :
    onOwn test ⟨s ^ 2 * x, s ^ 3 * y, false⟩ = onOwn test ⟨x, y, false⟩ := by
  by_cases h : (cubic (y * y - x * x * x)).Nonsingular x y
  · obtain ⟨h', e⟩ := scale_some hs h
    rw [onOwn_some test h, onOwn_some test h', ← e, ht]
  · rw [onOwn, onOwn, dif_neg h, dif_neg]
    intro h'
    apply h
    rw [cubic_nonsingular] at h' ⊢
    refine ⟨by ring, h'.2.imp (fun h0 h1 => h0 ?_) (fun h0 h1 => h0 ?_)⟩
    · simp only
      linear_combination s ^ 4 * h1
    · simp only
      linear_combination s ^ 3 * h1

include hs in
theorem inG1_scale (x y : K) : inG1 ⟨s ^ 2 * x, s ^ 3 * y, false⟩ = inG1 ⟨x, y, false⟩ := by
  refine onOwn_scale hs _ x y fun b P => ?_
  simp only [← map_nsmul, ← map_neg]
  rw [show (beta1 : K) * (s ^ 2 * x) = s ^ 2 * (beta1 * x) by ring]
  simp only [sameAs_scale]

end

theorem inG2_scale {K : Type} [Field K] [DecidableEq K] [Fact (∀ r : K, r ^ 2 ≠ -1 + 0 * r)] {s : Fq2 K} (hs : s ≠ 0) (hss : star s = s) (x y : Fq2 K) :
    inG2 ⟨s ^ 2 * x, s ^ 3 * y, false⟩ = inG2 ⟨x, y, false⟩ := by
  refine onOwn_scale hs _ x y fun b P => ?_
  simp only [← map_nsmul, ← map_neg]
  rw [show (toFq2 coeff0 : Fq2 K) * star (s ^ 2 * x) = s ^ 2 * (toFq2 coeff0 * star x) by rw [star_mul', star_pow, hss]; ring,
    show (toFq2 coeff1 : Fq2 K) * star (s ^ 3 * y) = s ^ 3 * (toFq2 coeff1 * star y) by rw [star_mul', star_pow, hss]; ring]
  exact sameAs_scale hs _ _ _

section
variable {K : Type} [Field K] [DecidableEq K] (le : K → K → Bool)

theorem g1Curve_scale {s : K} (hs : s ≠ 0) (x y : K) : (g1Curve le).inSubgroup ⟨s ^ 2 * x, s ^ 3 * y, false⟩ = (g1Curve le).inSubgroup ⟨x, y, false⟩ :=
  inG1_scale hs x y

theorem g2Curve_scale [Fact (∀ r : K, r ^ 2 ≠ -1 + 0 * r)] {s : K} (hs : s ≠ 0) (x y : Fq2 K) :
    (g2Curve le).inSubgroup ⟨⟨s, 0⟩ ^ 2 * x, ⟨s, 0⟩ ^ 3 * y, false⟩ = (g2Curve le).inSubgroup ⟨x, y, false⟩ := by
  refine inG2_scale (s := ⟨s, 0⟩) (fun h => hs (congrArg QuadraticAlgebra.re h)) ?_ x y
  ext <;> simp

end

/-- On which curve the multiples are. -/
theorem onCurve_scale {B : Type} [Field B] [DecidableEq B] {E : SWCurve B} (ha : E.a = 0) (hb : E.b ≠ 0) {x y : B} (h : E.onCurve ⟨x, y, false⟩ = true) (s : B) :
    E.onCurve ⟨s ^ 2 * x, s ^ 3 * y, false⟩ = true ↔ s ^ 6 = 1 := by
  rw [SWCurve.onCurve_iff, SWCurve.rhs] at h ⊢
  rw [ha] at h ⊢
  constructor
  · intro h'
    have : (s ^ 6 - 1) * E.b = 0 := by linear_combination h' - s ^ 6 * h
    exact sub_eq_zero.mp ((mul_eq_zero.mp this).resolve_right hb)
  · intro h'
    linear_combination s ^ 6 * h + E.b * h'

theorem fq2_pow_one {K : Type} [Field K] (s : K) (n : Nat) : (⟨s, 0⟩ : Fq2 K) ^ n = 1 ↔ s ^ n = 1 := by
  have h : (⟨s, 0⟩ : Fq2 K) ^ n = ⟨s ^ n, 0⟩ := by
    induction n with
    | zero => rw [pow_zero, pow_zero]; rfl
    | succ n ih => rw [pow_succ, ih, pow_succ]; ext <;> simp
  rw [h]
  exact ⟨fun h => congrArg QuadraticAlgebra.re h, fun h => by rw [h]; rfl⟩

theorem g2Curve_b {K : Type} [Field K] [DecidableEq K] [Fact (∀ r : K, r ^ 2 ≠ -1 + 0 * r)] (h4 : (4 : K) ≠ 0) (le : K → K → Bool) : (g2Curve le).b ≠ 0 :=
  fun h => h4 (congrArg QuadraticAlgebra.re h)

theorem blsG2_b : blsG2.b ≠ 0 := g2Curve_b (four_ne (fq_zero card_fq)) leFq

end GS
