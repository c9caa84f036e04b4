import Verif.Lemmas.Bls381

/-!
# C120: BLS12-381

The curves with which the tests and the benchmarks of the library instantiate it meet what the other properties ask of curves. Nothing about them is
assumed here: that the numbers are prime, how many points the curves have, what their tests for the subgroups accept on the curve and off it, and that
their square roots are square roots is proved from the constants and the methods of ark-bls12-381. The pairing is not modelled; it is any bilinear map
of the two subgroups that is not zero.
-/

set_option linter.unusedSectionVars false

namespace GS

/-- C120: the characteristics are prime, and so many points the curves have. -/
theorem C120_points : p381.Prime ∧ r381.Prime ∧
    Nat.card blsG1.curve.Point = r381 * cofactor1 ∧ Nat.card blsG2.curve.Point = r381 * cofactor2 ∧ ¬ r381 ∣ cofactor1 ∧ ¬ r381 ∣ cofactor2 :=
  ⟨p381_prime, r381_prime, blsG1_card, blsG2_card, g1_bound.2.2.2.2.2, g2_cofactor⟩

/-- C120: of the points of the curves, the tests accept those killed by `r`, which are the multiples of the generators. There are `r` of them. -/
theorem C120_tests : blsG1.Tests r381 ∧ blsG2.Tests r381 ∧
    (∃ g, blsG1.coords g = ⟨g1x, g1y, false⟩ ∧ ∀ p, blsG1.inSubgroup (blsG1.coords p) = true ↔ ∃ k < r381, k • g = p) ∧
    (∃ g, blsG2.coords g = ⟨toFq2 g2x, toFq2 g2y, false⟩ ∧ ∀ p, blsG2.inSubgroup (blsG2.coords p) = true ↔ ∃ k < r381, k • g = p) ∧
    Nat.card (blsG1.torsion r381) = r381 ∧ Nat.card (blsG2.torsion r381) = r381 := by
  have key : ∀ {A : Type} [AddCommGroup A] [Finite A] {h : Nat}, ¬ r381 ∣ h → Nat.card A = r381 * h → ∀ {g : A}, r381 • g = 0 → g ≠ 0 →
      ∀ p : A, r381 • p = 0 ↔ ∃ k < r381, k • g = p := by
    intro A _ _ h hh hA g hg hg0 p
    constructor
    · intro hp
      obtain ⟨k, hk⟩ := killed_multiple hh hA hg hg0 hp
      have hr : (0 : ℤ) < r381 := by exact_mod_cast r381_prime.pos
      refine ⟨(k % r381).toNat, by have := Int.emod_lt_of_pos k hr; have := Int.emod_nonneg k hr.ne'; omega, ?_⟩
      rw [← natCast_zsmul, Int.toNat_of_nonneg (Int.emod_nonneg k hr.ne'), ← hk]
      conv_rhs => rw [← Int.emod_add_mul_ediv k r381, add_zsmul, mul_comm, mul_zsmul, natCast_zsmul, hg, zsmul_zero, add_zero]
    · rintro ⟨k, -, rfl⟩
      rw [smul_comm, hg, smul_zero]
  refine ⟨blsG1_tests, blsG2_tests, ?_, ?_, (C118_order C120_points.2.2.2.2.1 blsG1_card).1, (C118_order C120_points.2.2.2.2.2 blsG2_card).1⟩
  · obtain ⟨g, h1, h2, h3⟩ := blsG1_generator
    refine ⟨g, h3, fun p => (blsG1_tests.test p).trans (key C120_points.2.2.2.2.1 blsG1_card h1 h2 p)⟩
  · obtain ⟨g, h1, h2, h3⟩ := blsG2_generator
    refine ⟨g, h3, fun p => (blsG2_tests.test p).trans (key C120_points.2.2.2.2.2 blsG2_card h1 h2 p)⟩

/-- C120: the square roots are square roots, the orders are orders, and no point is its own negative. -/
theorem C120_lawful : blsG1.Lawful ∧ blsG2.Lawful ∧ blsG1.NoOrderTwo ∧ blsG2.NoOrderTwo ∧ blsFq.Lawful ∧ blsFq2.Lawful :=
  ⟨blsG1_lawful, blsG2_lawful, blsG1_noOrderTwo, blsG2_noOrderTwo, blsFq_lawful, blsFq2_lawful⟩

/-- C120: the square root in the quadratic extension does not panic. It takes the root of a number that has one, and divides by it. -/
theorem C120_sqrt (a : Fq2 (ZMod p381)) (ha : a.im ≠ 0) (alpha : ZMod p381) (h : sqrtFq (a.re * a.re + a.im * a.im) = some alpha) :
    ∃ c0, sqrtFq (deltaFq2 a alpha) = some c0 ∧ c0 ≠ 0 := deltaFq2_root card_fq a ha alpha (sqrtFq_some h)

/-- C120: `UniformRand` of points, with which `generate_crs` draws generators, is as in C118 and C119. -/
theorem C120_clears : blsG1.Clears r381 cofactor1 (blsG1.byCofactor r381 cofactor1) ∧ blsG2.Clears r381 cofactor2 (blsG2.byCofactor r381 cofactor2) :=
  ⟨⟨blsG1_tests, blsG1_lawful, blsG1_noOrderTwo, C120_points.2.2.2.2.1, blsG1_card, byCofactor_coords blsG1_card⟩,
    ⟨blsG2_tests, blsG2_lawful, blsG2_noOrderTwo, C120_points.2.2.2.2.2, blsG2_card, byCofactor_coords blsG2_card⟩⟩

/-- C120: it does not find a point in `n` attempts with probability at most `1 / 2 ^ n`. -/
theorem C120_attempts (n : Nat) :
    (blsG1.count (blsG1.byCofactor r381 cofactor1) n none : ℝ) / Nat.card (Fin n → ZMod p381 × Bool) ≤ (1 / 2) ^ n ∧
    (blsG2.count (blsG2.byCofactor r381 cofactor2) n none : ℝ) / Nat.card (Fin n → Fq2 (ZMod p381) × Bool) ≤ (1 / 2) ^ n := by
  have key : ∀ N q : Nat, 0 < q → N ≤ 2 * q + 1 → q + 1 ≤ N → (1 - ((N : ℝ) - 1) / (2 * q)) ^ n ≤ (1 / 2) ^ n := by
    intro N q hq h1 h2
    have hq' : (0 : ℝ) < 2 * q := by positivity
    have h1' : (N : ℝ) ≤ 2 * q + 1 := by exact_mod_cast h1
    have h2' : (q : ℝ) + 1 ≤ N := by exact_mod_cast h2
    refine pow_le_pow_left₀ ?_ ?_ n
    · rw [sub_nonneg, div_le_one hq']; linarith
    · rw [sub_le_iff_le_add', ← sub_le_iff_le_add, le_div_iff₀ hq']; linarith
  have hp : 0 < p381 := p381_prime.pos
  have hc2 : Nat.card (Fq2 (ZMod p381)) = p381 ^ 2 := Nat.card_eq_fintype_card.trans (fq2_card card_fq)
  have hc1 : Nat.card (ZMod p381) = p381 := Nat.card_zmod _
  have l1 := C120_clears.1.card_le
  have l2 := C120_clears.2.card_le
  have c1 := C119_returns C120_clears.1 n
  have c2 := C119_returns C120_clears.2 n
  rw [c1, c2]
  rw [hc1, blsG1_card] at l1 ⊢
  rw [hc2, blsG2_card] at l2 ⊢
  exact ⟨key _ _ hp l1 (by decide +kernel), key _ _ (pow_pos hp 2) l2 (by decide +kernel)⟩

/-! ### Messages -/

theorem bls_points_bound : 1 / (Nat.card blsG1.curve.Point : ℝ) + 1 / Nat.card blsG2.curve.Point < 1 / 2 ^ 379 := by
  rw [blsG1_card, blsG2_card]
  have key : ∀ N : Nat, 2 * 2 ^ 379 < N → 1 / (N : ℝ) < 1 / (2 * 2 ^ 379) := by
    intro N h
    exact one_div_lt_one_div_of_lt (by positivity) (by exact_mod_cast h)
  have h1 := key (r381 * cofactor1) (by decide +kernel)
  have h2 := key (r381 * cofactor2) (by decide +kernel)
  have h3 : (1 : ℝ) / (2 * 2 ^ 379) + 1 / (2 * 2 ^ 379) = 1 / 2 ^ 379 := by ring
  linarith

theorem bls_order_bound : (2 : ℝ) / r381 < 1 / 2 ^ 253 * (3 / 4) := by
  have h : (8 : ℝ) * 2 ^ 253 < 3 * r381 := by exact_mod_cast (by decide +kernel : 8 * 2 ^ 253 < 3 * r381)
  have hr : (0 : ℝ) < r381 := by exact_mod_cast r381_prime.pos
  rw [div_lt_iff₀ hr]
  have : (1 : ℝ) / 2 ^ 253 * (3 / 4) * r381 = (3 * r381) / (4 * 2 ^ 253) := by field_simp
  rw [this, lt_div_iff₀ (by positivity)]
  linarith

theorem bls_small : (2 : ℝ) * (1 / 2 ^ 379) ≤ 1 / 2 ^ 253 * (1 / 4) := by
  have h : (1 : ℝ) / 2 ^ 379 = 1 / 2 ^ 253 * (1 / 2 ^ 126) := by rw [one_div_mul_one_div, ← pow_add]
  have h2 : (0 : ℝ) ≤ 1 / 2 ^ 253 := by positivity
  rw [h, mul_left_comm]
  exact mul_le_mul_of_nonneg_left (by norm_num) h2

section messages
variable {GT : Type} [AddCommGroup GT] [Module (ZMod r381) GT] [DecidableEq GT]
  {e : blsG1.torsion r381 →ₗ[ZMod r381] blsG2.torsion r381 →ₗ[ZMod r381] GT}

/-- A message whose points are represented. -/
noncomputable abbrev blsMessage : CProof (ZMod r381) (blsG1.torsion r381) (blsG2.torsion r381) → CProof (ZMod r381) (Affine (ZMod p381)) (Affine (Fq2 (ZMod p381))) :=
  CProof.on (blsG1.rep r381) (blsG2.rep r381)

/-- C120: the bytes that are read with validation, in the formats of ark-bls12-381, are those of messages over the groups. -/
theorem C120_read (m : Compress) (bs rest : Bytes) (msg : CProof (ZMod r381) (Affine (ZMod p381)) (Affine (Fq2 (ZMod p381)))) :
    (CProof.codec blsFr (blsG1.blsCodec blsFq) (blsG2.blsCodec blsFq2)).de m .Yes bs = .ok (msg, rest) ↔
      (CProof.codec blsFr (blsG1.blsCodec blsFq) (blsG2.blsCodec blsFq2)).de m .No bs = .ok (msg, rest) ∧ ∃! cp, msg = blsMessage cp := by
  rw [message_strict]
  exact C118_read blsFr_lawful blsFr_valid (strict_represents blsG1_tests blsG1_lawful blsFq_lawful) (strict_represents blsG2_tests blsG2_lawful blsFq2_lawful)
    m bs rest msg

/-- C120, soundness from bytes: if a receiver that validates, and computes on points what `verify` computes on elements of the groups, accepts any
bytes, their commitments open to values that satisfy the equation. -/
theorem C120_sound (he : e ≠ 0) (sch : Scheduler) (crs : CRS (blsG1.torsion r381) (blsG2.torsion r381) GT) (hc : GeneratedCrs e crs) (h0 : crs.NonzeroGens)
    (equ : OneEqu (ZMod r381) (blsG1.torsion r381) (blsG2.torsion r381) GT) (m : Compress) (bs : Bytes)
    (verify : CProof (ZMod r381) (Affine (ZMod p381)) (Affine (Fq2 (ZMod p381))) → Res Bool) (hv : ∀ cp, verify (blsMessage cp) = equ.verify e sch crs cp)
    (h : receive blsFr (blsG1.blsCodec blsFq) (blsG2.blsCodec blsFq2) m .Yes bs verify = .ok (.ok true)) :
    ∃ cp rest, (CProof.codec blsFr (blsG1.blsCodec blsFq) (blsG2.blsCodec blsFq2)).de m .Yes bs = .ok (blsMessage cp, rest) ∧ equ.Proved e crs cp := by
  rw [receive_strict] at h
  rw [message_strict]
  exact C118_sound (blsPrime he) blsFr_lawful blsFr_valid (strict_represents blsG1_tests blsG1_lawful blsFq_lawful)
    (strict_represents blsG2_tests blsG2_lawful blsFq2_lawful) sch crs hc h0 equ m bs verify hv h

/-- C120, completeness to bytes: such a receiver accepts what `commit_and_prove` returns for values that satisfy the equation. -/
theorem C120_honest {ρ : Type} [Rng ρ (ZMod r381) (blsG1.torsion r381) (blsG2.torsion r381)] (sch : Nat → Scheduler) (sch' : Scheduler)
    (crs : CRS (blsG1.torsion r381) (blsG2.torsion r381) GT) (hu : crs.u.length = 2) (hv : crs.v.length = 2) (rng : ρ) (m : Compress)
    (v : Validate) (rest : Bytes) (verify : OneEqu (ZMod r381) (blsG1.torsion r381) (blsG2.torsion r381) GT →
      CProof (ZMod r381) (Affine (ZMod p381)) (Affine (Fq2 (ZMod p381))) → Res Bool)
    (hver : ∀ equ cp, verify equ (blsMessage cp) = equ.verify e sch' crs cp) :
    let send := fun cp => (CProof.codec blsFr (blsG1.blsCodec blsFq) (blsG2.blsCodec blsFq2)).ser m (blsMessage cp) ++ rest
    let accepts := fun equ bs => receive blsFr (blsG1.blsCodec blsFq) (blsG2.blsCodec blsFq2) m v bs (verify equ) = .ok (.ok true)
    (∀ (equ : PPE (ZMod r381) (blsG1.torsion r381) (blsG2.torsion r381) GT) x y, x ≠ [] → y ≠ [] → Fits64 x → Fits64 y → equ.Dims x.length y.length →
      equ.Holds e x y → ∃ cp rng', equ.commitAndProve sch x y crs rng = .ok (cp, rng') ∧ accepts (.ppe equ) (send cp)) ∧
    (∀ (equ : MSMEG1 (ZMod r381) (blsG1.torsion r381)) x y, x ≠ [] → y ≠ [] → Fits64 x → Fits64 y → equ.Dims x.length y.length →
      equ.Holds x y → ∃ cp rng', equ.commitAndProve sch x y crs rng = .ok (cp, rng') ∧ accepts (.msmeg1 equ) (send cp)) ∧
    (∀ (equ : MSMEG2 (ZMod r381) (blsG2.torsion r381)) x y, x ≠ [] → y ≠ [] → Fits64 x → Fits64 y → equ.Dims x.length y.length →
      equ.Holds x y → ∃ cp rng', equ.commitAndProve sch x y crs rng = .ok (cp, rng') ∧ accepts (.msmeg2 equ) (send cp)) ∧
    (∀ (equ : QuadEqu (ZMod r381)) x y, x ≠ [] → y ≠ [] → Fits64 x → Fits64 y → equ.Dims x.length y.length →
      equ.Holds x y → ∃ cp rng', equ.commitAndProve sch x y crs rng = .ok (cp, rng') ∧ accepts (.quad equ) (send cp)) := by
  intro send accepts
  simp only [send, accepts, receive_strict, message_strict]
  exact C118_honest blsFr_lawful blsFr_valid (strict_represents blsG1_tests blsG1_lawful blsFq_lawful)
    (strict_represents blsG2_tests blsG2_lawful blsFq2_lawful) sch sch' crs hu hv rng m v rest verify hver

open scoped Classical in
/-- C120: a CRS with generators drawn by the sampler is one for which false statements have no proofs, except with probability less than
`1 / 2 ^ 253`, for any pairing that is not zero. -/
theorem C120_sound_crs (he : e ≠ 0) {n : Nat} (hn : 0 < n) :
    1 - sampledGame e blsG1 (blsG1.byCofactor r381 cofactor1) blsG2 (blsG2.byCofactor r381 cofactor2) n (fun crs => if SoundCrs e crs then 1 else 0) <
      1 / 2 ^ 253 := by
  rw [C119_sound (blsPrime he) C120_clears.1 C120_clears.2 hn]
  have key : ∀ k : ℝ, 1 ≤ k → 0 ≤ (k - 1) / (r381 * k - 1) ∧ (k - 1) / (r381 * k - 1) < 1 / r381 := by
    intro k hk
    have hr : (1 : ℝ) < r381 := by exact_mod_cast r381_prime.one_lt
    have hd : 0 < r381 * k - 1 := by nlinarith
    refine ⟨div_nonneg (by linarith) hd.le, ?_⟩
    rw [div_lt_div_iff₀ hd (by linarith)]
    linarith
  have h1 := key cofactor1 (by exact_mod_cast (by decide +kernel : 1 ≤ cofactor1))
  have h2 := key cofactor2 (by exact_mod_cast (by decide +kernel : 1 ≤ cofactor2))
  have h3 : (2 : ℝ) * 2 ^ 253 < r381 := by exact_mod_cast (by decide +kernel : 2 * 2 ^ 253 < r381)
  have h4 : (1 : ℝ) / r381 + 1 / r381 < 1 / 2 ^ 253 := by
    rw [← add_div, div_lt_div_iff₀ (by linarith [pow_pos (two_pos : (0 : ℝ) < 2) 253]) (by positivity)]
    linarith
  generalize ((cofactor1 : ℝ) - 1) / (r381 * cofactor1 - 1) = a at *
  generalize ((cofactor2 : ℝ) - 1) / (r381 * cofactor2 - 1) = b at *
  nlinarith [mul_nonneg h1.1 h2.1]

open scoped Classical in
/-- C120: no distinguisher tells such a CRS from one with uniform generators, but with probability less than `1 / 2 ^ 379`. -/
theorem C120_distance {n : Nat} (hn : 0 < n) (D : CRS (blsG1.torsion r381) (blsG2.torsion r381) GT → ℝ) (hD : ∀ crs, 0 ≤ D crs ∧ D crs ≤ 1) :
    |sampledGame e blsG1 (blsG1.byCofactor r381 cofactor1) blsG2 (blsG2.byCofactor r381 cofactor2) n D - bindingGame e D| < 1 / 2 ^ 379 :=
  (C119_distance C120_clears.1 C120_clears.2 hn D hD).trans_lt bls_points_bound

open scoped Classical in
/-- C120: an attacker chooses an equation and bytes after seeing such a CRS. With probability less than `1 / 2 ^ 253` the receiver of `C120_sound`
accepts the bytes although they are not those of a message whose commitments open to values that satisfy the equation. -/
theorem C120_adaptive_soundness (he : e ≠ 0) {n : Nat} (hn : 0 < n) (m : Compress)
    (verify : CRS (blsG1.torsion r381) (blsG2.torsion r381) GT → OneEqu (ZMod r381) (blsG1.torsion r381) (blsG2.torsion r381) GT →
      CProof (ZMod r381) (Affine (ZMod p381)) (Affine (Fq2 (ZMod p381))) → Res Bool)
    (sch : Scheduler) (hv : ∀ crs equ cp, verify crs equ (blsMessage cp) = equ.verify e sch crs cp)
    (A : CRS (blsG1.torsion r381) (blsG2.torsion r381) GT → OneEqu (ZMod r381) (blsG1.torsion r381) (blsG2.torsion r381) GT × Bytes) :
    sampledGame e blsG1 (blsG1.byCofactor r381 cofactor1) blsG2 (blsG2.byCofactor r381 cofactor2) n (fun crs =>
      if receive blsFr (blsG1.blsCodec blsFq) (blsG2.blsCodec blsFq2) m .Yes (A crs).2 (verify crs (A crs).1) = .ok (.ok true) ∧
        ¬ ∃ cp rest, (CProof.codec blsFr (blsG1.blsCodec blsFq) (blsG2.blsCodec blsFq2)).de m .Yes (A crs).2 = .ok (blsMessage cp, rest) ∧
          (A crs).1.Proved e crs cp then 1 else 0) < 1 / 2 ^ 253 := by
  rw [sampledGame_generated (D' := fun crs => if (receive blsFr (blsG1.blsCodec blsFq) (blsG2.blsCodec blsFq2) m .Yes (A crs).2 (verify crs (A crs).1) = .ok (.ok true) ∧
        ¬ ∃ cp rest, (CProof.codec blsFr (blsG1.blsCodec blsFq) (blsG2.blsCodec blsFq2)).de m .Yes (A crs).2 = .ok (blsMessage cp, rest) ∧
          (A crs).1.Proved e crs cp) ∧ GeneratedCrs e crs then 1 else 0) fun crs hc => by simp only [hc, and_true]]
  refine (sampled_fooled (blsPrime he) C120_clears.1 C120_clears.2 hn _ ?_).trans_lt
    ((C119_adaptive_soundness (blsPrime he) C120_clears.1 C120_clears.2 hn).2.2.2.2.1.trans (bls_order_bound.trans_le ?_))
  · rintro crs ⟨⟨h1, h2⟩, hc⟩ hs
    exact h2 (C120_sound he sch crs hc ((soundCrs_iff (blsPrime he) hc).mp hs) _ m _ _ (hv crs _) h1)
  · have : (0 : ℝ) ≤ 1 / 2 ^ 253 := by positivity
    linarith

open scoped Classical in
/-- C120: whoever drives a whole program learns nothing about its secrets (C104), except with the advantage of a distinguisher for SXDH in the two
groups and less than `1 / 2 ^ 253`. -/
theorem C120_indistinguishable (he : e ≠ 0) {n : Nat} (hn : 0 < n) {cd : Codecs (ZMod r381) (blsG1.torsion r381) (blsG2.torsion r381)} (hcd : cd.Lawful)
    (σ : CRS (blsG1.torsion r381) (blsG2.torsion r381) GT → Strategy (ZMod r381) (blsG1.torsion r381) (blsG2.torsion r381) GT)
    (hσ : ∀ crs, (σ crs).Bounded) :
    let D1 := fun crs => leftRight e crs cd false (σ crs)
    let D2 := fun crs => leftRight e crs cd true (σ crs)
    |sampledGame e blsG1 (blsG1.byCofactor r381 cofactor1) blsG2 (blsG2.byCofactor r381 cofactor2) n D1 -
      sampledGame e blsG1 (blsG1.byCofactor r381 cofactor1) blsG2 (blsG2.byCofactor r381 cofactor2) n D2| < sxdhAdv e D1 + sxdhAdv e D2 + 1 / 2 ^ 253 := by
  intro D1 D2
  have := C119_indistinguishable (blsPrime he) C120_clears.1 C120_clears.2 hn hcd σ hσ
  have h1 := bls_points_bound
  have h2 := bls_order_bound
  have h3 := bls_small
  linarith

open scoped Classical in
/-- C120: a simulator without the secrets is as good as a whole program (C105), except with such probability. -/
theorem C120_zero_knowledge (he : e ≠ 0) {n : Nat} (hn : 0 < n) {cd : Codecs (ZMod r381) (blsG1.torsion r381) (blsG2.torsion r381)} (hcd : cd.Lawful)
    (σ : CRS (blsG1.torsion r381) (blsG2.torsion r381) GT → Examiner (ZMod r381) (blsG1.torsion r381) (blsG2.torsion r381) GT)
    (hσ : ∀ crs, (σ crs).Bounded) :
    let D := fun crs => realWorld e crs cd (σ crs)
    |sampledGame e blsG1 (blsG1.byCofactor r381 cofactor1) blsG2 (blsG2.byCofactor r381 cofactor2) n D -
      trapdoorGame e fun crs t1 t2 => simulatedWorld e crs cd t1 t2 (σ crs)| < sxdhAdv e D + 1 / 2 ^ 253 := by
  intro D
  have := C119_zero_knowledge (blsPrime he) C120_clears.1 C120_clears.2 hn hcd σ hσ
  have h1 := bls_points_bound
  have h2 := bls_order_bound
  have h3 := bls_small
  linarith

end messages

/-! ### Points off the curve -/

/-- C120: multiplying the coordinates by `s²` and `s³` does not change what the tests answer, for any `s` of the prime field but zero. It takes
points of the curve off it unless `s⁶ = 1`. -/
theorem C120_scaled (s : ZMod p381) (hs : s ≠ 0) :
    (∀ x y, blsG1.inSubgroup ⟨s ^ 2 * x, s ^ 3 * y, false⟩ = blsG1.inSubgroup ⟨x, y, false⟩) ∧
    (∀ x y, blsG2.inSubgroup ⟨⟨s, 0⟩ ^ 2 * x, ⟨s, 0⟩ ^ 3 * y, false⟩ = blsG2.inSubgroup ⟨x, y, false⟩) ∧
    (∀ x y, blsG1.onCurve ⟨x, y, false⟩ = true → (blsG1.onCurve ⟨s ^ 2 * x, s ^ 3 * y, false⟩ = true ↔ s ^ 6 = 1)) ∧
    (∀ x y, blsG2.onCurve ⟨x, y, false⟩ = true → (blsG2.onCurve ⟨⟨s, 0⟩ ^ 2 * x, ⟨s, 0⟩ ^ 3 * y, false⟩ = true ↔ s ^ 6 = 1)) :=
  ⟨g1Curve_scale leFq hs, g2Curve_scale leFq hs, fun x y h => onCurve_scale rfl (four_ne (fq_zero card_fq)) h s,
    fun x y h => (onCurve_scale rfl blsG2_b h _).trans (fq2_pow_one s 6)⟩

/-- C120: so, whatever element of the subgroup but the identity it starts from, a point off the curve is read in uncompressed form with validation, in
both groups. -/
theorem C120_off_curve (s : ZMod p381) (hs : s ≠ 0) (h6 : s ^ 6 ≠ 1) (rest : Bytes) :
    (∀ x y, (∃ g, blsG1.rep r381 g = ⟨x, y, false⟩) → ∃ P : Affine (ZMod p381), P = ⟨s ^ 2 * x, s ^ 3 * y, false⟩ ∧ blsG1.onCurve P = false ∧
      (blsG1.blsCodec blsFq).de .No .Yes ((blsG1.blsCodec blsFq).ser .No P ++ rest) = .ok (P, rest) ∧ ¬ (blsG1.blsCodec blsFq).Valid P ∧
      ∀ bs v rest', (blsG1.blsCodec blsFq).de .Yes v bs ≠ .ok (P, rest')) ∧
    (∀ x y, (∃ g, blsG2.rep r381 g = ⟨x, y, false⟩) → ∃ P : Affine (Fq2 (ZMod p381)), P = ⟨⟨s, 0⟩ ^ 2 * x, ⟨s, 0⟩ ^ 3 * y, false⟩ ∧ blsG2.onCurve P = false ∧
      (blsG2.blsCodec blsFq2).de .No .Yes ((blsG2.blsCodec blsFq2).ser .No P ++ rest) = .ok (P, rest) ∧ ¬ (blsG2.blsCodec blsFq2).Valid P ∧
      ∀ bs v rest', (blsG2.blsCodec blsFq2).de .Yes v bs ≠ .ok (P, rest')) := by
  obtain ⟨k1, k2, k3, k4⟩ := C120_scaled s hs
  have key : ∀ {B : Type} [Field B] [DecidableEq B] {E : SWCurve B} {c : BeField B} (hE : E.Lawful) (hc : c.Lawful) (P : Affine B), P.infinity = false →
      E.onCurve P = false → E.inSubgroup P = true →
      (E.blsCodec c).de .No .Yes ((E.blsCodec c).ser .No P ++ rest) = .ok (P, rest) ∧ ¬ (E.blsCodec c).Valid P ∧
      ∀ bs v rest', (E.blsCodec c).de .Yes v bs ≠ .ok (P, rest') := by
    intro B _ _ E c hE hc P h0 h1 h2
    refine ⟨(C114_uncompressed hE hc _ _ _ _).mpr (.inr ⟨h0, fun _ => h2, ?_⟩), fun h => ?_, fun bs v rest' h => ?_⟩
    · rw [bls_ser_finite hc h0]
    · rw [bls_valid, h1] at h; exact absurd h.1 (by simp)
    · rcases (C114_compressed hE hc _ _ _ _).mp h with ⟨rfl, -⟩ | ⟨-, h', -⟩
      · simp [Affine.identity] at h0
      · rw [h1] at h'; cases h'
  constructor
  · rintro x y ⟨g, hg⟩
    obtain ⟨h1, h2⟩ := (SWCurve.inSubgroup_rep blsG1_tests _).mpr ⟨g, hg⟩
    have h1' := (h1.resolve_left (by simp [Affine.identity])).2
    have hoff := Bool.eq_false_iff.mpr (mt (k3 x y h1').mp h6)
    exact ⟨_, rfl, hoff, key blsG1_lawful blsFq_lawful _ rfl hoff (by rw [k1]; exact h2)⟩
  · rintro x y ⟨g, hg⟩
    obtain ⟨h1, h2⟩ := (SWCurve.inSubgroup_rep blsG2_tests _).mpr ⟨g, hg⟩
    have h1' := (h1.resolve_left (by simp [Affine.identity])).2
    have hoff := Bool.eq_false_iff.mpr (mt (k4 x y h1').mp h6)
    exact ⟨_, rfl, hoff, key blsG2_lawful blsFq2_lawful _ rfl hoff (by rw [k2]; exact h2)⟩

namespace Ex

noncomputable abbrev BH1 := blsG1.torsion r381
noncomputable abbrev BH2 := blsG2.torsion r381

/-- Logarithms, and a pairing made of them. -/
noncomputable def logB1 : BH1 ≃+ ZMod r381 := addEquivOfPrimeCardEq C120_tests.2.2.2.2.1 (Nat.card_zmod r381)
noncomputable def logB2 : BH2 ≃+ ZMod r381 := addEquivOfPrimeCardEq C120_tests.2.2.2.2.2 (Nat.card_zmod r381)

theorem pairB : ∃ e : BH1 →ₗ[ZMod r381] BH2 →ₗ[ZMod r381] ZMod r381, e (logB1.symm 1) (logB2.symm 1) = 1 := by
  obtain ⟨e, h, -⟩ := C118_prime C120_tests.2.2.2.2.1 C120_tests.2.2.2.2.2 (fun x y => logB1 x * logB2 y) (fun x x' y => by rw [map_add, add_mul])
    (fun x y y' => by rw [map_add, mul_add]) (logB1.symm 1) (logB2.symm 1) (by simp)
  exact ⟨e, by rw [h]; simp⟩

noncomputable def eB := pairB.choose

theorem eB_ne : eB ≠ 0 := by
  intro h
  have := pairB.choose_spec
  rw [show pairB.choose = eB from rfl, h] at this
  exact one_ne_zero this.symm

noncomputable instance : Rng Nat (ZMod r381) BH1 BH2 where
  randF s := (s, s + 1)
  randG1 s := (logB1.symm 1, s + 1)
  randG2 s := (logB2.symm 1, s + 1)

noncomputable def crsB : CRS BH1 BH2 (ZMod r381) := (generateCrs eB (1 : Nat)).1

theorem crsB_generated : GeneratedCrs eB crsB := ⟨Nat, _, 1, rfl⟩

theorem crsB_nonzero : crsB.NonzeroGens := by
  constructor
  · show logB1.symm 1 ≠ 0
    simp
  · show logB2.symm 1 ≠ 0
    simp

theorem repB1 : Function.Injective (blsG1.rep r381) := SWCurve.rep_injective
theorem repB2 : Function.Injective (blsG2.rep r381) := SWCurve.rep_injective

noncomputable def verifyB (equ : OneEqu (ZMod r381) BH1 BH2 (ZMod r381)) (msg : CProof (ZMod r381) (Affine (ZMod p381)) (Affine (Fq2 (ZMod p381)))) : Res Bool :=
  open Classical in
  if h : ∃ cp, blsMessage cp = msg then equ.verify eB seqSched crsB h.choose else .ok false

theorem verifyB_on (equ : OneEqu (ZMod r381) BH1 BH2 (ZMod r381)) (cp : CProof (ZMod r381) BH1 BH2) :
    verifyB equ (blsMessage cp) = equ.verify eB seqSched crsB cp := by
  have h : ∃ cp', blsMessage cp' = blsMessage cp := ⟨cp, rfl⟩
  rw [verifyB, dif_pos h, CProof.on_inj repB1 repB2 h.choose_spec]

/-- `y + 2 x + x y = 4`, at `(1, 1)`. -/
def quadB : QuadEqu (ZMod r381) := ⟨[1], [2], [[1]], 4⟩

theorem quadB_holds : quadB.Holds [1] [1] := by
  simp [QuadEqu.Holds, equLhs, quadB]
  norm_num

/-- The receiver accepts the bytes of an honest proof, and what it accepted is proved. -/
example (sch : Nat → Scheduler) (m : Compress) : ∃ cp rng' bs, quadB.commitAndProve sch [1] [1] crsB (5 : Nat) = .ok (cp, rng') ∧
    receive blsFr (blsG1.blsCodec blsFq) (blsG2.blsCodec blsFq2) m .Yes bs (verifyB (.quad quadB)) = .ok (.ok true) ∧
    ∃ cp' rest, (CProof.codec blsFr (blsG1.blsCodec blsFq) (blsG2.blsCodec blsFq2)).de m .Yes bs = .ok (blsMessage cp', rest) ∧
      (OneEqu.quad quadB).Proved eB crsB cp' := by
  obtain ⟨cp, rng', h, hr⟩ := (C120_honest sch seqSched crsB rfl rfl (5 : Nat) m .Yes [7, 7] verifyB verifyB_on).2.2.2 quadB [1] [1] (by simp) (by simp)
    (by simp [Fits64]) (by simp [Fits64]) ⟨rfl, rfl, rfl, by simp [quadB]⟩ quadB_holds
  exact ⟨cp, rng', _, h, hr, C120_sound eB_ne seqSched crsB crsB_generated crsB_nonzero _ m _ _ (verifyB_on _) hr⟩

example := C120_sound_crs eB_ne (n := 100) (by decide)

/-- A receiver that knows the CRS. -/
noncomputable def verifyBC (crs : CRS BH1 BH2 (ZMod r381)) (equ : OneEqu (ZMod r381) BH1 BH2 (ZMod r381))
    (msg : CProof (ZMod r381) (Affine (ZMod p381)) (Affine (Fq2 (ZMod p381)))) : Res Bool :=
  open Classical in
  if h : ∃ cp, blsMessage cp = msg then equ.verify eB seqSched crs h.choose else .ok false

/-- Any attacker. -/
example (A : CRS BH1 BH2 (ZMod r381) → OneEqu (ZMod r381) BH1 BH2 (ZMod r381) × Bytes) :=
  C120_adaptive_soundness eB_ne (n := 100) (by decide) .Yes verifyBC seqSched (fun crs equ cp => by
    have h : ∃ cp', blsMessage cp' = blsMessage cp := ⟨cp, rfl⟩
    rw [verifyBC, dif_pos h, CProof.on_inj repB1 repB2 h.choose_spec]) A

example := C120_distance (e := eB) (n := 100) (by decide) (fun crs => if crs.g1_gen = 0 then 1 else 0) fun crs => by split_ifs <;> norm_num

noncomputable def codecsB : Codecs (ZMod r381) BH1 BH2 := ⟨blsFr, via blsFr logB1.toEquiv, via blsFr logB2.toEquiv⟩

theorem codecsB_lawful : codecsB.Lawful :=
  ⟨blsFr_lawful, via_lawful blsFr_lawful _, via_lawful blsFr_lawful _, blsFr_valid, fun x => blsFr_valid (logB1 x), fun x => blsFr_valid (logB2 x)⟩

/-- Two witnesses of `quadB`. -/
example (sch : Nat → Scheduler) := C120_indistinguishable (n := 100) eB_ne (by decide) codecsB_lawful
  (fun _ => .call (.commitAndProve 0 0 0 (.quad quadB [1] [1]) sch) (.commitAndProve 0 0 0 (.quad quadB [0] [4]) sch) fun o _ => .stop (if o = .done then 1 else 0))
  (fun _ _ _ => by simp only [Strategy.Bounded]; split <;> norm_num)

example (sch : Nat → Scheduler) := C120_zero_knowledge (n := 100) eB_ne (by decide) codecsB_lawful
  (fun _ => .call (.commitAndProve 0 0 0 (.quad quadB [1] [1]) sch) fun o _ => .stop (if o = .done then 1 else 0))
  (fun _ _ _ => by simp only [Examiner.Bounded]; split <;> norm_num)

example (m : Compress) (bs rest : Bytes) (msg) := C120_read m bs rest msg

/-- `1 + u` is not a square; `-5 + 12 u` is the square of `2 + 3 u`. -/
example : ∃ alpha, sqrtFq ((-5 : ZMod p381) * -5 + 12 * 12) = some alpha := by
  have := sqrtFq_sq card_fq (13 : ZMod p381)
  rwa [show (13 : ZMod p381) * 13 = -5 * -5 + 12 * 12 by norm_num] at this

/-- Four and eight times the coordinates of the generator of the first group are not on the curve, but are read with validation. -/
example (rest : Bytes) : ∃ P : Affine (ZMod p381), P = ⟨2 ^ 2 * g1x, 2 ^ 3 * g1y, false⟩ ∧ blsG1.onCurve P = false ∧
    (blsG1.blsCodec blsFq).de .No .Yes ((blsG1.blsCodec blsFq).ser .No P ++ rest) = .ok (P, rest) := by
  obtain ⟨g, hg, h⟩ := C120_tests.2.2.1
  have h2 := p381_two (fq_zero card_fq)
  have h6 : (2 : ZMod p381) ^ 6 ≠ 1 := by
    intro h
    apply natCast_ne_zero_of_gcd (K := ZMod p381) (n := 63) (fq_zero card_fq) (by decide +kernel)
    push_cast
    linear_combination h
  obtain ⟨P, hP, h1, h3, -⟩ := (C120_off_curve 2 h2 h6 rest).1 g1x g1y
    ⟨⟨g, (blsG1_tests.test g).mp ((h g).mpr ⟨1, r381_prime.one_lt, one_nsmul g⟩)⟩, hg⟩
  exact ⟨P, hP, h1, h3⟩

end Ex

end GS
