import Verif.Lemmas.Sampled
import Verif.Props.Adaptive
import Verif.Props.AdaptiveZk

/-!
# C119: the generators of the CRS as the library draws them

The games of the other properties draw the generators uniformly. The library tries coordinates until one is that of a point and multiplies by the
cofactor, so the identity is drawn less often than any other element (C115, C118). Whatever is proved about uniform draws holds for these, up to the
inverses of the numbers of points.
-/

set_option linter.unusedSectionVars false
open scoped BigOperators Classical

namespace GS
variable {r : Nat} [hr : Fact r.Prime] {B1 B2 GT : Type} [Field B1] [DecidableEq B1] [Fintype B1] [Field B2] [DecidableEq B2] [Fintype B2]
  {E1 : SWCurve B1} {E2 : SWCurve B2} [Fintype (E1.torsion r)] [Fintype (E2.torsion r)] [AddCommGroup GT] [Module (ZMod r) GT]
  {e : E1.torsion r →ₗ[ZMod r] E2.torsion r →ₗ[ZMod r] GT}
  {k1 k2 n : Nat} {clear1 : Affine B1 → E1.torsion r} {clear2 : Affine B2 → E2.torsion r}

/-- C119: no distinguisher, however powerful, tells the sampled CRS from the one with uniform generators, but with this probability. -/
theorem C119_distance (h1 : E1.Clears r k1 clear1) (h2 : E2.Clears r k2 clear2) (hn : 0 < n) (D : CRS (E1.torsion r) (E2.torsion r) GT → ℝ)
    (hD : ∀ crs, 0 ≤ D crs ∧ D crs ≤ 1) :
    |sampledGame e E1 clear1 E2 clear2 n D - bindingGame e D| ≤ 1 / Nat.card E1.curve.Point + 1 / Nat.card E2.curve.Point := by
  have hs : ∀ p1 p2, 0 ≤ scalarGame e D p1 p2 ∧ scalarGame e D p1 p2 ≤ 1 := fun p1 p2 =>
    ⟨scalarGame_const (e := e) 0 p1 p2 ▸ scalarGame_mono (fun crs => (hD crs).1) p1 p2,
      scalarGame_const (e := e) 1 p1 p2 ▸ scalarGame_mono (fun crs => (hD crs).2) p1 p2⟩
  have hw : ∀ p1, 0 ≤ weighted k2 (scalarGame e D p1) ∧ weighted k2 (scalarGame e D p1) ≤ 1 := fun p1 =>
    ⟨weighted_const h2.pos h2.one_lt (0 : ℝ) ▸ weighted_mono h2.pos h2.one_lt fun p2 => (hs p1 p2).1,
      weighted_const h2.pos h2.one_lt (1 : ℝ) ▸ weighted_mono h2.pos h2.one_lt fun p2 => (hs p1 p2).2⟩
  have hb : bindingGame e D = 𝔼 p1, 𝔼 p2, scalarGame e D p1 p2 := rfl
  have d1 := weighted_distance h1.pos h1.one_lt _ hw
  have d2 : |(𝔼 p1, weighted k2 (scalarGame e D p1)) - 𝔼 p1, 𝔼 p2, scalarGame e D p1 p2| ≤ 1 / (Fintype.card (E2.torsion r) * k2) := by
    rw [← Finset.expect_sub_distrib]
    refine (Finset.abs_expect_le ..).trans ?_
    refine (Finset.expect_le_expect fun p1 _ => weighted_distance h2.pos h2.one_lt _ (hs p1)).trans ?_
    rw [Fintype.expect_const]
  rw [sampledGame_eq h1 h2 hn, hb, h1.card_points, h2.card_points]
  rw [h1.card] at d1
  rw [h2.card] at d2
  push_cast
  have := abs_sub_le (weighted k1 fun p1 => weighted k2 (scalarGame e D p1)) (𝔼 p1, weighted k2 (scalarGame e D p1)) (𝔼 p1, 𝔼 p2, scalarGame e D p1 p2)
  linarith

/-- C119: the generators are found but with this probability, which `n` makes as small as one likes. -/
theorem C119_returns (h1 : E1.Clears r k1 clear1) (n : Nat) :
    (E1.count clear1 n none : ℝ) / Nat.card (Fin n → B1 × Bool) = (1 - (Nat.card E1.curve.Point - 1) / (2 * Nat.card B1)) ^ n := by
  have hB : (0 : ℝ) < Nat.card B1 := by exact_mod_cast Nat.card_pos
  have hle := h1.card_le
  have hpos : 0 < Nat.card E1.curve.Point := Nat.card_pos
  rw [(C118_generator h1.tests h1.lawful h1.noOrderTwo h1.cofactor h1.card_points clear1 h1.clears n).2, ← h1.card_points]
  have hc : Nat.card (Fin n → B1 × Bool) = (2 * Nat.card B1) ^ n := by
    rw [Nat.card_fun, Nat.card_prod, Nat.card_eq_fintype_card (α := Bool), Fintype.card_bool, Nat.card_eq_fintype_card (α := Fin n), Fintype.card_fin,
      Nat.mul_comm]
  rw [hc, Nat.cast_pow, Nat.cast_pow, ← div_pow, Nat.cast_sub (by omega), Nat.cast_sub hpos]
  push_cast
  congr 1
  field_simp

variable [DecidableEq GT]

/-- C119: the probability that the CRS is sound. -/
theorem C119_sound (he : PrimeGroups e) (h1 : E1.Clears r k1 clear1) (h2 : E2.Clears r k2 clear2) (hn : 0 < n) :
    sampledGame e E1 clear1 E2 clear2 n (fun crs => if SoundCrs e crs then 1 else 0) =
      (1 - (k1 - 1) / (r * k1 - 1)) * (1 - (k2 - 1) / (r * k2 - 1)) := by
  have h : ∀ (p1 : E1.torsion r) (p2 : E2.torsion r), scalarGame e (fun crs => if SoundCrs e crs then 1 else 0) p1 p2 =
      (if p2 ≠ 0 then 1 else 0) * (if p1 ≠ 0 then 1 else 0) := by
    intro p1 p2
    refine Eq.trans ?_ (scalarGame_const (e := e) _ p1 p2)
    unfold scalarGame
    refine Finset.expect_congr rfl fun a1 _ => Finset.expect_congr rfl fun a2 _ => Finset.expect_congr rfl fun t1 _ => Finset.expect_congr rfl fun t2 _ => ?_
    have hs := soundCrs_iff he (crs := (generateCrs e ([p1], [p2], [a1, a2, t1, t2])).1) ⟨_, _, _, rfl⟩
    have hz : (generateCrs e ([p1], [p2], [a1, a2, t1, t2])).1.NonzeroGens ↔ p1 ≠ 0 ∧ p2 ≠ 0 :=
      ⟨fun h => ⟨h.1, h.2⟩, fun h => ⟨h.1, h.2⟩⟩
    show (if SoundCrs e _ then (1 : ℝ) else 0) = (if p2 ≠ 0 then 1 else 0) * (if p1 ≠ 0 then 1 else 0)
    simp only [hs, hz]
    by_cases g1 : p1 = 0 <;> by_cases g2 : p2 = 0 <;> simp [g1, g2]
  have hin : ∀ p1 : E1.torsion r, weighted k2 (fun p2 : E2.torsion r => (if p2 ≠ 0 then (1 : ℝ) else 0) * (if p1 ≠ 0 then 1 else 0)) =
      (if p1 ≠ 0 then 1 else 0) * (1 - (k2 - 1) / (r * k2 - 1)) := by
    intro p1
    rw [weighted_mul, weighted_nonzero h2.pos h2.one_lt, h2.card, mul_comm]
  rw [sampledGame_eq h1 h2 hn]
  simp only [h, hin]
  rw [weighted_mul, weighted_nonzero h1.pos h1.one_lt, h1.card]

theorem sampled_fooled (he : PrimeGroups e) (h1 : E1.Clears r k1 clear1) (h2 : E2.Clears r k2 clear2) (hn : 0 < n)
    (bad : CRS (E1.torsion r) (E2.torsion r) GT → Prop) [DecidablePred bad] (h : ∀ crs, bad crs → ¬ SoundCrs e crs) :
    sampledGame e E1 clear1 E2 clear2 n (fun crs => if bad crs then 1 else 0) ≤ (k1 - 1) / (r * k1 - 1) + (k2 - 1) / (r * k2 - 1) := by
  have hs := C119_sound (n := n) he h1 h2 hn
  have hsum : sampledGame e E1 clear1 E2 clear2 n (fun crs => if bad crs then 1 else 0) ≤
      sampledGame e E1 clear1 E2 clear2 n (fun crs => 1 - if SoundCrs e crs then 1 else 0) := by
    refine sampledGame_mono h1 h2 hn fun crs => ?_
    by_cases hb : bad crs
    · rw [if_pos hb, if_neg (h crs hb)]; simp
    · rw [if_neg hb]; split_ifs <;> simp
  have hone : sampledGame e E1 clear1 E2 clear2 n (fun crs => 1 - if SoundCrs e crs then 1 else 0) =
      1 - sampledGame e E1 clear1 E2 clear2 n (fun crs => if SoundCrs e crs then 1 else 0) := by
    rw [sampledGame_eq h1 h2 hn, sampledGame_eq h1 h2 hn]
    have : ∀ p1 p2, scalarGame e (fun crs => 1 - if SoundCrs e crs then 1 else 0) p1 p2 =
        1 - scalarGame e (fun crs => if SoundCrs e crs then 1 else 0) p1 p2 := by
      intro p1 p2
      simp only [scalarGame, Finset.expect_sub_distrib, Fintype.expect_const]
    simp only [this, weighted_sub, weighted_const h2.pos h2.one_lt, weighted_const h1.pos h1.one_lt]
  have w1 := weight_pos h1.pos h1.one_lt
  have w2 := weight_pos h2.pos h2.one_lt
  rw [h1.card] at w1
  rw [h2.card] at w2
  have c1 : (1 : ℝ) ≤ k1 := by exact_mod_cast h1.pos
  have c2 : (1 : ℝ) ≤ k2 := by exact_mod_cast h2.pos
  have n1 : (0 : ℝ) ≤ (k1 - 1) / (r * k1 - 1) := div_nonneg (by linarith) w1.le
  have n2 : (0 : ℝ) ≤ (k2 - 1) / (r * k2 - 1) := div_nonneg (by linarith) w2.le
  rw [hone, hs] at hsum
  nlinarith [mul_nonneg n1 n2]

/-- C119: an attacker who chooses a false equation and a proof after seeing the CRS makes `verify` return true with at most this probability, which
is below `2 / r`, and zero for curves of prime order. -/
theorem C119_adaptive_soundness (he : PrimeGroups e) (h1 : E1.Clears r k1 clear1) (h2 : E2.Clears r k2 clear2) (hn : 0 < n) :
    let ε : ℝ := (k1 - 1) / (r * k1 - 1) + (k2 - 1) / (r * k2 - 1)
    (∀ A : CRS (E1.torsion r) (E2.torsion r) GT → PPE (ZMod r) (E1.torsion r) (E2.torsion r) GT × CProof (ZMod r) (E1.torsion r) (E2.torsion r) × Scheduler,
      sampledGame e E1 clear1 E2 clear2 n (fun crs => if (A crs).1.verify e (A crs).2.2 (A crs).2.1 crs = .ok true ∧
        ¬ ∃ x y, (A crs).1.Holds e x y then 1 else 0) ≤ ε) ∧
    (∀ A : CRS (E1.torsion r) (E2.torsion r) GT → MSMEG1 (ZMod r) (E1.torsion r) × CProof (ZMod r) (E1.torsion r) (E2.torsion r) × Scheduler,
      sampledGame e E1 clear1 E2 clear2 n (fun crs => if (A crs).1.verify e (A crs).2.2 (A crs).2.1 crs = .ok true ∧
        ¬ ∃ x y, (A crs).1.Holds x y then 1 else 0) ≤ ε) ∧
    (∀ A : CRS (E1.torsion r) (E2.torsion r) GT → MSMEG2 (ZMod r) (E2.torsion r) × CProof (ZMod r) (E1.torsion r) (E2.torsion r) × Scheduler,
      sampledGame e E1 clear1 E2 clear2 n (fun crs => if (A crs).1.verify e (A crs).2.2 (A crs).2.1 crs = .ok true ∧
        ¬ ∃ x y, (A crs).1.Holds x y then 1 else 0) ≤ ε) ∧
    (∀ A : CRS (E1.torsion r) (E2.torsion r) GT → QuadEqu (ZMod r) × CProof (ZMod r) (E1.torsion r) (E2.torsion r) × Scheduler,
      sampledGame e E1 clear1 E2 clear2 n (fun crs => if (A crs).1.verify e (A crs).2.2 (A crs).2.1 crs = .ok true ∧
        ¬ ∃ x y, (A crs).1.Holds x y then 1 else 0) ≤ ε) ∧
    ε < 2 / r ∧ (k1 = 1 → k2 = 1 → ε = 0) := by
  refine ⟨fun A => sampled_fooled he h1 h2 hn _ fun _ hb hs => hb.2 (hs.1 _ _ _ hb.1),
    fun A => sampled_fooled he h1 h2 hn _ fun _ hb hs => hb.2 (hs.2.1 _ _ _ hb.1),
    fun A => sampled_fooled he h1 h2 hn _ fun _ hb hs => hb.2 (hs.2.2.1 _ _ _ hb.1),
    fun A => sampled_fooled he h1 h2 hn _ fun _ hb hs => hb.2 (hs.2.2.2 _ _ _ hb.1), ?_, ?_⟩
  · have w1 := weight_pos h1.pos h1.one_lt
    have w2 := weight_pos h2.pos h2.one_lt
    rw [h1.card] at w1
    rw [h2.card] at w2
    have hr1 : (1 : ℝ) < r := by exact_mod_cast hr.out.one_lt
    have b1 : ((k1 : ℝ) - 1) / (r * k1 - 1) < 1 / r := by
      rw [div_lt_div_iff₀ w1 (by linarith)]; nlinarith
    have b2 : ((k2 : ℝ) - 1) / (r * k2 - 1) < 1 / r := by
      rw [div_lt_div_iff₀ w2 (by linarith)]; nlinarith
    calc _ < 1 / (r : ℝ) + 1 / r := add_lt_add b1 b2
      _ = 2 / r := by ring
  · rintro rfl rfl
    simp

/-- C119: whoever drives a whole program learns nothing about its secrets (C104), with the sampled CRS. -/
theorem C119_indistinguishable (he : PrimeGroups e) (h1 : E1.Clears r k1 clear1) (h2 : E2.Clears r k2 clear2) (hn : 0 < n)
    {cd : Codecs (ZMod r) (E1.torsion r) (E2.torsion r)} (hcd : cd.Lawful)
    (σ : CRS (E1.torsion r) (E2.torsion r) GT → Strategy (ZMod r) (E1.torsion r) (E2.torsion r) GT) (hσ : ∀ crs, (σ crs).Bounded) :
    let D1 := fun crs => leftRight e crs cd false (σ crs)
    let D2 := fun crs => leftRight e crs cd true (σ crs)
    |sampledGame e E1 clear1 E2 clear2 n D1 - sampledGame e E1 clear1 E2 clear2 n D2| ≤
      sxdhAdv e D1 + sxdhAdv e D2 + 2 / r + 2 * (1 / Nat.card E1.curve.Point + 1 / Nat.card E2.curve.Point) := by
  intro D1 D2
  have k := C104_indistinguishable he hcd σ hσ
  have k1 := C119_distance (e := e) h1 h2 hn D1 fun crs => Adaptive.play_mem crs cd _ (hσ crs) ..
  have k2 := C119_distance (e := e) h1 h2 hn D2 fun crs => Adaptive.play_mem crs cd _ (hσ crs) ..
  have h2r : (1 : ℝ) / r + 1 / r = 2 / r := by ring
  rw [h1.card, h2.card, h2r] at k
  rw [abs_le] at *
  constructor <;> linarith

/-- C119: a simulator without the secrets is as good as a whole program (C105), with the sampled CRS. -/
theorem C119_zero_knowledge (he : PrimeGroups e) (h1 : E1.Clears r k1 clear1) (h2 : E2.Clears r k2 clear2) (hn : 0 < n)
    {cd : Codecs (ZMod r) (E1.torsion r) (E2.torsion r)} (hcd : cd.Lawful)
    (σ : CRS (E1.torsion r) (E2.torsion r) GT → Examiner (ZMod r) (E1.torsion r) (E2.torsion r) GT) (hσ : ∀ crs, (σ crs).Bounded) :
    let D := fun crs => realWorld e crs cd (σ crs)
    |sampledGame e E1 clear1 E2 clear2 n D - trapdoorGame e fun crs t1 t2 => simulatedWorld e crs cd t1 t2 (σ crs)| ≤
      sxdhAdv e D + 2 / r + (1 / Nat.card E1.curve.Point + 1 / Nat.card E2.curve.Point) := by
  intro D
  have k := C105_indistinguishable he hcd σ hσ
  have k1 := C119_distance (e := e) h1 h2 hn D fun crs => Adaptive.examine_mem crs cd _ _ _ (hσ crs) ..
  have h2r : (1 : ℝ) / r + 1 / r = 2 / r := by ring
  rw [h1.card, h2.card, h2r] at k
  rw [abs_le] at *
  constructor <;> linarith

namespace Ex

/-! The points of `curve11` killed by 5, on both sides. -/

noncomputable instance : Fintype (curve11s.torsion 5) := Fintype.ofFinite _

noncomputable abbrev H11 := curve11s.torsion 5

theorem clears11 : curve11s.Clears 5 3 clear11s :=
  ⟨curve11s_tests, curve11s_lawful, curve11_noOrderTwo, by decide, card11, clear11s_coords⟩

noncomputable def log11 : H11 ≃+ ZMod 5 := addEquivOfPrimeCardEq (C118_order (by decide) card11).1 (Nat.card_zmod 5)

theorem pair11 : ∃ e : H11 →ₗ[ZMod 5] H11 →ₗ[ZMod 5] ZMod 5, (∀ x y, e x y = log11 x * log11 y) ∧ PrimeGroups e :=
  C118_prime (C118_order (by decide) card11).1 (C118_order (by decide) card11).1 (fun x y => log11 x * log11 y) (fun x x' y => by rw [map_add, add_mul])
    (fun x y y' => by rw [map_add, mul_add]) (log11.symm 1) (log11.symm 1) (by simp)

noncomputable def e5 := pair11.choose
theorem prime5 : PrimeGroups e5 := pair11.choose_spec.2

/-- A codec for values that are numbered. -/
def via {H R : Type} (c : Codec R) (j : H ≃ R) : Codec H where
  ser m x := c.ser m (j x)
  size m x := c.size m (j x)
  de m v bs := (c.de m v bs).map fun a => (j.symm a.1, a.2)
  check x := c.check (j x)
  batchCheck l := c.batchCheck (l.map j)

theorem via_de {H R : Type} {c : Codec R} {j : H ≃ R} {m v bs x rest} :
    (via c j).de m v bs = .ok (x, rest) ↔ c.de m v bs = .ok (j x, rest) := by
  show (c.de m v bs).map _ = _ ↔ _
  rcases c.de m v bs with err | ⟨a, rest'⟩
  · simp [Except.map]
  · simp only [Except.map, Except.ok.injEq, Prod.mk.injEq, Equiv.symm_apply_eq]

theorem via_lawful {H R : Type} {c : Codec R} (h : c.Lawful) (j : H ≃ R) : (via c j).Lawful where
  round m v x rest hv := via_de.mpr (h.round m v (j x) rest hv)
  size m x := h.size m (j x)
  stream m v bs x rest hd := by
    obtain ⟨used, hu, hr⟩ := h.stream m v bs _ rest (via_de.mp hd)
    exact ⟨used, hu, fun rest' => via_de.mpr (hr rest')⟩
  validate m bs x rest := by
    rw [via_de, via_de]
    exact h.validate m bs (j x) rest
  batch l := by
    show c.batchCheck (l.map j) = _ ↔ _
    rw [h.batch]
    simp only [List.mem_map, forall_exists_index, and_imp, forall_apply_eq_imp_iff₂]
    rfl

def scalar5 : Codec (ZMod 5) := (fpCodec 5 1 1).plain
theorem scalar5_lawful : scalar5.Lawful := (C110_fp (p := 5) (by norm_num) (by norm_num)).1.plain

noncomputable def codecs5 : Codecs (ZMod 5) H11 H11 := ⟨scalar5, via scalar5 log11.toEquiv, via scalar5 log11.toEquiv⟩
theorem codecs5_lawful : codecs5.Lawful :=
  ⟨scalar5_lawful, via_lawful scalar5_lawful _, via_lawful scalar5_lawful _, fun _ => rfl, fun _ => rfl, fun _ => rfl⟩

/-- Four attempts for each generator; a distinguisher that looks at the first generator. -/
example := C119_distance (e := e5) clears11 clears11 (n := 4) (by decide) (fun crs => if crs.g1_gen = 0 then 1 else 0)
  fun crs => by split_ifs <;> norm_num

/-- An attempt fails with probability 8/22. -/
example (n : Nat) : (curve11s.count clear11s n none : ℝ) / Nat.card (Fin n → K11 × Bool) = (8 / 22) ^ n := by
  rw [C119_returns clears11, card11, Nat.card_zmod]
  norm_num

/-- The CRS is unsound with probability 13/49. -/
example : sampledGame e5 curve11s clear11s curve11s clear11s 4 (fun crs => if SoundCrs e5 crs then 1 else 0) = 36 / 49 := by
  rw [C119_sound prime5 clears11 clears11 (by decide)]
  norm_num

example := C119_adaptive_soundness (n := 4) prime5 clears11 clears11 (by decide)

/-- `y + 2 x + x y = 0`, for the witnesses `(1, 4)` and `(0, 0)`. -/
def quad5 : QuadEqu (ZMod 5) := ⟨[1], [2], [[1]], 0⟩

example (sch : Nat → Scheduler) := C119_indistinguishable (n := 4) prime5 clears11 clears11 (by decide) codecs5_lawful
  (fun _ => .call (.commitAndProve 0 0 0 (.quad quad5 [1] [4]) sch) (.commitAndProve 0 0 0 (.quad quad5 [0] [0]) sch) fun o _ => .stop (if o = .done then 1 else 0))
  (fun _ _ _ => by simp only [Strategy.Bounded]; split <;> norm_num)

example (sch : Nat → Scheduler) := C119_zero_knowledge (n := 4) prime5 clears11 clears11 (by decide) codecs5_lawful
  (fun _ => .call (.commitAndProve 0 0 0 (.quad quad5 [1] [4]) sch) fun o _ => .stop (if o = .done then 1 else 0))
  (fun _ _ _ => by simp only [Examiner.Bounded]; split <;> norm_num)

end Ex

end GS
