import Verif.Lemmas.Curve
import Verif.Props.Example
import Verif.Props.Sample
import Mathlib.GroupTheory.SpecificGroups.Cyclic

/-!
# C118: messages of points of an elliptic curve

The groups are the points of a curve that are killed by a prime `r`, with the addition of points, as defined in Mathlib. Their elements are
transmitted in the format of ark-ec (C110) or of BLS12-381 (C114).
-/

set_option linter.unusedSectionVars false

namespace GS

section curve
variable {B : Type} [Field B] [DecidableEq B] {E : SWCurve B} {r : Nat}

/-- C118: the points killed by `r` are a vector space over the scalars, which act by repeated addition. -/
theorem C118_scalars [Fact r.Prime] (a : ZMod r) (x y : E.torsion r) :
    ((a • x : E.torsion r) : E.curve.Point) = a.val • (x : E.curve.Point) ∧
    ((x + y : E.torsion r) : E.curve.Point) = (x : E.curve.Point) + (y : E.curve.Point) ∧
    ∀ p : E.curve.Point, r • p = 0 ↔ ∃ x : E.torsion r, x.1 = p := by
  refine ⟨?_, rfl, fun p => ⟨fun h => ⟨⟨p, h⟩, rfl⟩, ?_⟩⟩
  · have : a • x = a.val • x := by
      conv_lhs => rw [← ZMod.natCast_zmod_val a]
      exact Nat.cast_smul_eq_nsmul _ _ _
    rw [this]
    rfl
  · rintro ⟨x, rfl⟩
    exact x.2

/-- C118, the format of ark-ec: the elements of the subgroup are read back, and with validation nothing else is read. -/
theorem C118_ark (h : E.Tests r) (hE : E.Lawful) {c : FieldCodec B} (hc : c.Lawful) : Represents (E.codec c) (E.rep r) where
  orderly := SWCurve.orderly hE hc
  injective := SWCurve.rep_injective
  returns m x := by
    have hp := ((SWCurve.inSubgroup_rep h _).mpr ⟨x, rfl⟩).1
    obtain ⟨-, -, k, k'⟩ := C110_points hE hc
    cases m
    · exact (k _).mpr hp
    · exact (k' _).mpr (hp.imp_right And.left)
  valid x := SWCurve.check_rep h x
  inside m bs P rest hd := by
    refine (SWCurve.inSubgroup_rep h P).mp ⟨(SWCurve.proper_iff P).mp ((C110_only hE hc).2.2 m .Yes bs P rest (.inr rfl) hd), ?_⟩
    have := (((SWCurve.orderly hE hc).validate m bs P rest).mp hd).2
    exact ((SWCurve.check_iff P).mp this).2

/-- C118, the format of BLS12-381: the same, if the test for the subgroup rejects what is not on the curve. -/
theorem C118_bls (h : E.Tests r) (hE : E.Lawful) {c : BeField B} (hc : c.Lawful) (hs : ∀ P, E.inSubgroup P = true → E.onCurve P = true) :
    Represents (E.blsCodec c) (E.rep r) := by
  have o := (C114_only hE hc).1
  have i := (C114_only hE hc).2.2
  rw [C114_strict hs] at o i
  refine ⟨o, SWCurve.rep_injective, fun m x => ?_, fun x => SWCurve.check_rep h x, fun m bs P rest hd => ?_⟩
  · have hp := ((SWCurve.inSubgroup_rep h _).mpr ⟨x, rfl⟩).1
    obtain ⟨-, k, k'⟩ := C114_points (c := c) hE hc
    cases m
    · exact (k _).mpr hp
    · exact (k' _).mpr (hp.imp_right And.left)
  · exact (SWCurve.inSubgroup_rep h P).mp ⟨(SWCurve.proper_iff P).mp (i m .Yes bs P rest (.inr rfl) hd),
      ((bls_valid P).mp ((o.validate m bs P rest).mp hd).2).2⟩

/-- C118: if the curve has `r * h` points and `r` does not divide `h`, the subgroup has `r` elements, and multiplication by the cofactor `h` maps
the points onto it, `h` points to each element. -/
theorem C118_order [Finite B] [hr : Fact r.Prime] {h : Nat} (hh : ¬ r ∣ h) (hA : Nat.card E.curve.Point = r * h) :
    Nat.card (E.torsion r) = r ∧ Nat.card {p : E.curve.Point // h • p = 0} = h ∧
    ∀ p : E.curve.Point, ((∃ q, h • q = p) ↔ r • p = 0) := by
  have hp0 : ∀ p : E.curve.Point, (r * h) • p = 0 := fun p => by rw [← hA]; exact card_nsmul_eq_zero'
  have h1 : Nat.card (E.torsion r) = r := card_killed hh hA
  have hsur : ∀ p : E.curve.Point, (∃ q, h • q = p) ↔ r • p = 0 := fun p => by
    constructor
    · rintro ⟨q, rfl⟩
      rw [← mul_nsmul', hp0]
    · intro hp
      obtain ⟨c, c1, c0⟩ := Nat.chineseRemainder ((hr.out.coprime_iff_not_dvd).mpr hh) 1 0
      obtain ⟨k, rfl⟩ := (Nat.modEq_zero_iff_dvd).mp c0
      refine ⟨k • p, ?_⟩
      rw [← mul_nsmul', nsmul_eq_nsmul_iff_modEq.mpr (c1.of_dvd (addOrderOf_dvd_of_nsmul_eq_zero hp)), one_nsmul]
  refine ⟨h1, ?_, hsur⟩
  let φ : E.curve.Point →+ E.torsion r := (nsmulAddMonoidHom h).codRestrict (E.torsion r) fun p => (hsur _).mp ⟨p, rfl⟩
  have hφ : Function.Surjective φ := fun ⟨p, hp⟩ => by
    obtain ⟨q, hq⟩ := (hsur p).mpr hp
    exact ⟨q, Subtype.ext hq⟩
  have hker : Nat.card φ.ker = Nat.card {p : E.curve.Point // h • p = 0} :=
    Nat.card_congr (Equiv.subtypeEquivRight fun p => by rw [AddMonoidHom.mem_ker, Subtype.ext_iff]; rfl)
  have := AddSubgroup.card_eq_card_quotient_mul_card_addSubgroup φ.ker
  rw [Nat.card_congr (QuotientAddGroup.quotientKerEquivOfSurjective φ hφ).toEquiv, h1, hA, hker] at this
  exact (Nat.eq_of_mul_eq_mul_left hr.out.pos this).symm

/-- C118, `UniformRand` of points: the attempts of the sampler that stop at an element of the subgroup, if multiplication by the cofactor `k`
follows. All elements but the identity are drawn equally often; the identity is drawn `k - 1` times for every `k` times of another one. -/
theorem C118_generator [Fintype B] [hr : Fact r.Prime] (h : E.Tests r) (hE : E.Lawful) (h2 : E.NoOrderTwo) {k : Nat} (hk : ¬ r ∣ k)
    (hA : Nat.card E.curve.Point = r * k) (clear : Affine B → E.torsion r) (hclear : ∀ p, (clear (E.coords p)).1 = k • p) (n : Nat) :
    (∃ c, (0 < n → 0 < c) ∧ ∀ g, E.count clear n (some g) = c * if g = 0 then k - 1 else k) ∧
    E.count clear n none = (2 * Nat.card B - (r * k - 1)) ^ n := by
  obtain ⟨-, h3, hsur⟩ := C118_order hk hA
  let φ : E.curve.Point →+ E.torsion r := (nsmulAddMonoidHom k).codRestrict (E.torsion r) fun p => (hsur _).mp ⟨p, rfl⟩
  have hφ : Function.Surjective φ := fun ⟨p, hp⟩ => by
    obtain ⟨q, hq⟩ := (hsur p).mpr hp
    exact ⟨q, Subtype.ext hq⟩
  have hker : Nat.card φ.ker = k :=
    (Nat.card_congr (Equiv.subtypeEquivRight fun p => by rw [AddMonoidHom.mem_ker, Subtype.ext_iff]; rfl)).trans h3
  have := C115_generator (SWCurve.points h) hE h2 rfl φ hφ clear (fun z => Subtype.ext (hclear z)) n
  rwa [hker, hA] at this

end curve

/-- C118: what the other properties ask of the groups holds for groups of prime order and any pairing of them that is not zero. -/
theorem C118_prime {r : Nat} [hr : Fact r.Prime] {H1 H2 GT : Type} [AddCommGroup H1] [AddCommGroup H2] [AddCommGroup GT]
    [Module (ZMod r) H1] [Module (ZMod r) H2] [Module (ZMod r) GT] (h1 : Nat.card H1 = r) (h2 : Nat.card H2 = r)
    (e : H1 → H2 → GT) (hl : ∀ x x' y, e (x + x') y = e x y + e x' y) (hrr : ∀ x y y', e x (y + y') = e x y + e x y')
    (x0 : H1) (y0 : H2) (h0 : e x0 y0 ≠ 0) :
    ∃ e' : H1 →ₗ[ZMod r] H2 →ₗ[ZMod r] GT, (∀ x y, e' x y = e x y) ∧ PrimeGroups e' := by
  have gen : ∀ {H : Type} [AddCommGroup H] [Module (ZMod r) H], Nat.card H = r → ∀ g : H, g ≠ 0 → ∀ x, ∃ k : ZMod r, x = k • g := by
    intro H _ _ hc g hg x
    have := mem_zmultiples_of_prime_card hc hg (g' := x)
    obtain ⟨k, hk⟩ := AddSubgroup.mem_zmultiples_iff.mp this
    exact ⟨k, by rw [Int.cast_smul_eq_zsmul, hk]⟩
  let f : H1 →+ H2 →+ GT := AddMonoidHom.mk' (fun x => AddMonoidHom.mk' (e x) (hrr x)) fun x x' => AddMonoidHom.ext (hl x x')
  have hf : ∀ x y, f x y = e x y := fun _ _ => rfl
  let e' : H1 →ₗ[ZMod r] H2 →ₗ[ZMod r] GT := LinearMap.mk₂ (ZMod r) e hl
    (fun k x y => (ZMod.map_smul (f.flip y) k x : _)) hrr (fun k x y => (ZMod.map_smul (f x) k y : _))
  have he : ∀ x y, e' x y = e x y := fun _ _ => rfl
  refine ⟨e', he, gen h1, gen h2, fun x y h => ?_⟩
  by_contra hn
  rw [not_or] at hn
  obtain ⟨a, ha⟩ := gen h1 x hn.1 x0
  obtain ⟨b, hb⟩ := gen h2 y hn.2 y0
  apply h0
  rw [← he, ha, hb, map_smul, map_smul, LinearMap.smul_apply, h, smul_zero, smul_zero]

section messages
variable {F H1 H2 GT R1 R2 : Type} [Field F] [AddCommGroup GT] [Module F GT] [DecidableEq GT] [AddCommGroup H1] [Module F H1]
  [AddCommGroup H2] [Module F H2] {e : H1 →ₗ[F] H2 →ₗ[F] GT} {cF : Codec F} {c1 : Codec R1} {c2 : Codec R2} {j1 : H1 → R1} {j2 : H2 → R2}

/-- C118: what is read with validation represents a message over the groups, and only one. -/
theorem C118_read (hF : cF.Lawful) (hFv : ∀ a, cF.Valid a) (h1 : Represents c1 j1) (h2 : Represents c2 j2) (m : Compress)
    (bs rest : Bytes) (msg : CProof F R1 R2) :
    (CProof.codec cF c1 c2).de m .Yes bs = .ok (msg, rest) ↔
      (CProof.codec cF c1 c2).de m .No bs = .ok (msg, rest) ∧ ∃! cp : CProof F H1 H2, msg = cp.on j1 j2 := by
  rw [read_inside hF hFv h1 h2]
  refine and_congr_right fun _ => ⟨?_, fun ⟨cp, h, _⟩ => ⟨cp, h⟩⟩
  rintro ⟨cp, rfl⟩
  exact ⟨cp, rfl, fun cp' h => (CProof.on_inj h1.injective h2.injective h).symm⟩

/-- C118, soundness from bytes: a receiver validates and then verifies with the representations of points. If its verifier computes on them what
`verify` computes on the points, and it answers `true` to any bytes, their commitments open to values that satisfy the equation. -/
theorem C118_sound (hp : PrimeGroups e) (hF : cF.Lawful) (hFv : ∀ a, cF.Valid a) (h1 : Represents c1 j1) (h2 : Represents c2 j2)
    (sch : Scheduler) (crs : CRS H1 H2 GT) (hc : GeneratedCrs e crs) (h0 : crs.NonzeroGens) (equ : OneEqu F H1 H2 GT) (m : Compress)
    (bs : Bytes) (verify : CProof F R1 R2 → Res Bool) (hv : ∀ cp : CProof F H1 H2, verify (cp.on j1 j2) = equ.verify e sch crs cp)
    (h : receive cF c1 c2 m .Yes bs verify = .ok (.ok true)) :
    ∃ (cp : CProof F H1 H2) (rest : Bytes), (CProof.codec cF c1 c2).de m .Yes bs = .ok (cp.on j1 j2, rest) ∧ equ.Proved e crs cp := by
  obtain ⟨msg, rest, hd, hr⟩ := receive_ok.mp h
  obtain ⟨-, cp, rfl⟩ := (read_inside hF hFv h1 h2 m bs rest msg).mp hd
  exact ⟨cp, rest, hd, OneEqu.proved_of_verify hp hc h0 (hv cp ▸ hr)⟩

/-- C118, completeness to bytes: what `commit_and_prove` returns for values that satisfy the equation is accepted by such a receiver, in both forms,
with or without validation, whatever follows in the stream. -/
theorem C118_honest {ρ : Type} [Rng ρ F H1 H2] (hF : cF.Lawful) (hFv : ∀ a, cF.Valid a) (h1 : Represents c1 j1) (h2 : Represents c2 j2)
    (sch : Nat → Scheduler) (sch' : Scheduler) (crs : CRS H1 H2 GT) (hu : crs.u.length = 2) (hv : crs.v.length = 2) (rng : ρ) (m : Compress)
    (v : Validate) (rest : Bytes) (verify : OneEqu F H1 H2 GT → CProof F R1 R2 → Res Bool)
    (hver : ∀ equ (cp : CProof F H1 H2), verify equ (cp.on j1 j2) = equ.verify e sch' crs cp) :
    (∀ (equ : PPE F H1 H2 GT) x y, x ≠ [] → y ≠ [] → Fits64 x → Fits64 y → equ.Dims x.length y.length → equ.Holds e x y →
      ∃ cp rng', equ.commitAndProve sch x y crs rng = .ok (cp, rng') ∧
        receive cF c1 c2 m v ((CProof.codec cF c1 c2).ser m (cp.on j1 j2) ++ rest) (verify (.ppe equ)) = .ok (.ok true)) ∧
    (∀ (equ : MSMEG1 F H1) x y, x ≠ [] → y ≠ [] → Fits64 x → Fits64 y → equ.Dims x.length y.length → equ.Holds x y →
      ∃ cp rng', equ.commitAndProve sch x y crs rng = .ok (cp, rng') ∧
        receive cF c1 c2 m v ((CProof.codec cF c1 c2).ser m (cp.on j1 j2) ++ rest) (verify (.msmeg1 equ)) = .ok (.ok true)) ∧
    (∀ (equ : MSMEG2 F H2) x y, x ≠ [] → y ≠ [] → Fits64 x → Fits64 y → equ.Dims x.length y.length → equ.Holds x y →
      ∃ cp rng', equ.commitAndProve sch x y crs rng = .ok (cp, rng') ∧
        receive cF c1 c2 m v ((CProof.codec cF c1 c2).ser m (cp.on j1 j2) ++ rest) (verify (.msmeg2 equ)) = .ok (.ok true)) ∧
    (∀ (equ : QuadEqu F) x y, x ≠ [] → y ≠ [] → Fits64 x → Fits64 y → equ.Dims x.length y.length → equ.Holds x y →
      ∃ cp rng', equ.commitAndProve sch x y crs rng = .ok (cp, rng') ∧
        receive cF c1 c2 m v ((CProof.codec cF c1 c2).ser m (cp.on j1 j2) ++ rest) (verify (.quad equ)) = .ok (.ok true)) := by
  have sent : ∀ (cp : CProof F H1 H2) (equ : OneEqu F H1 H2 GT), cp.Fits → equ.verify e sch' crs cp = .ok true →
      receive cF c1 c2 m v ((CProof.codec cF c1 c2).ser m (cp.on j1 j2) ++ rest) (verify equ) = .ok (.ok true) := by
    intro cp equ hf hw
    refine receive_ok.mpr ⟨_, rest, C109_round_message hF.orderly h1.orderly h2.orderly m v _ (CProof.fits_on.mpr hf) ?_ (fun _ => ?_) rest,
      (hver equ cp).trans hw⟩
    · exact elems_rep (fun a rest => hF.round m .No a rest (by simp)) (h1.returns m) (h2.returns m) cp
    · exact elems_rep hFv h1.valid h2.valid cp
  refine ⟨fun equ x y hx hy fx fy hd hs => ?_, fun equ x y hx hy fx fy hd hs => ?_, fun equ x y hx hy fx fy hd hs => ?_,
    fun equ x y hx hy fx fy hd hs => ?_⟩
  · obtain ⟨cp, rng', h, hw⟩ := C01_ppe_complete e equ x y crs rng sch sch' hx hy hd hu hv hs
    exact ⟨cp, rng', h, sent cp (.ppe equ) ((commit_and_prove_fits sch crs rng rng' cp).1 equ x y fx fy h) hw⟩
  · obtain ⟨cp, rng', h, hw⟩ := C02_msmeg1_complete e equ x y crs rng sch sch' hx hy hd hu hv hs
    exact ⟨cp, rng', h, sent cp (.msmeg1 equ) ((commit_and_prove_fits sch crs rng rng' cp).2.1 equ x y fx fy h) hw⟩
  · obtain ⟨cp, rng', h, hw⟩ := C03_msmeg2_complete e equ x y crs rng sch sch' hx hy hd hu hv hs
    exact ⟨cp, rng', h, sent cp (.msmeg2 equ) ((commit_and_prove_fits sch crs rng rng' cp).2.2.1 equ x y fx fy h) hw⟩
  · obtain ⟨cp, rng', h, hw⟩ := C04_quad_complete e equ x y crs rng sch sch' hx hy hd hu hv hs
    exact ⟨cp, rng', h, sent cp (.quad equ) ((commit_and_prove_fits sch crs rng rng' cp).2.2.2 equ x y fx fy h) hw⟩

end messages

namespace Ex

section
open WeierstrassCurve.Affine

/-- The test of `curve7`, that the abscissa is 0, is a test for the points killed by 3. -/
theorem curve7_tests : curve7.Tests 3 where
  smooth := by decide
  test p := by
    have h3 : (3 : Nat) • p = 0 ↔ p + p = -p := by
      rw [show (3 : Nat) • p = p + p + p by rw [show (3 : Nat) = 2 + 1 from rfl, add_nsmul, two_nsmul, one_nsmul], add_eq_zero_iff_eq_neg]
    rw [h3]
    rcases p with _ | ⟨x, y, h⟩
    · exact ⟨fun _ => rfl, fun _ => rfl⟩
    · have heq := (SWCurve.curve_equation x y).mp h.1
      have hy : curve7.curve.negY x y = -y := by simp [WeierstrassCurve.Affine.negY, SWCurve.curve]
      have ht : curve7.inSubgroup (curve7.coords (.some x y h)) = true ↔ x = 0 := by simp [SWCurve.coords, curve7]
      rw [ht]
      by_cases h0 : y = 0
      · subst h0
        rw [Point.add_self_of_Y_eq (by rw [hy, neg_zero])]
        constructor
        · rintro rfl
          exact absurd heq (by decide)
        · intro hn
          exact absurd hn.symm (by rw [Point.neg_some]; exact Point.some_ne_zero _)
      · have h2 : y + y ≠ 0 := (by decide : ∀ y : K, ¬ y = 0 → y + y ≠ 0) y h0
        have hne : y ≠ curve7.curve.negY x y := by rw [hy]; intro hh; exact h2 (by linear_combination hh)
        rw [Point.add_self_of_Y_ne hne, Point.neg_some]
        have hs : curve7.curve.slope x x y y = 3 * x ^ 2 / (y + y) := by
          rw [WeierstrassCurve.Affine.slope_of_Y_ne rfl hne, hy]
          simp [SWCurve.curve, curve7]
        simp only [Point.some.injEq, hs, hy]
        constructor
        · rintro rfl
          simp [SWCurve.curve, WeierstrassCurve.Affine.addX, WeierstrassCurve.Affine.addY, WeierstrassCurve.Affine.negAddY, WeierstrassCurve.Affine.negY]
        · rintro ⟨hx, -⟩
          simp only [SWCurve.curve, WeierstrassCurve.Affine.addX] at hx
          have : 9 * x ^ 4 = 12 * x * (y * y) := by
            have hl : 3 * x ^ 2 / (y + y) * (y + y) = 3 * x ^ 2 := div_mul_cancel₀ _ h2
            generalize 3 * x ^ 2 / (y + y) = l at hl hx
            linear_combination (-(l * (y + y)) - 3 * x ^ 2) * hl + 4 * (y * y) * hx
          rw [heq] at this
          revert this
          clear hs hne h2 h0 ht hy heq h3 h hx
          show 9 * x ^ 4 = 12 * x * (x * x * x + (0 : K) * x + 1) → x = 0
          revert x
          decide

end

/-- The curve has 12 points. -/
theorem card7 : Nat.card curve7.curve.Point = 3 * 4 := by
  rw [SWCurve.card_points curve7_tests, show Fintype.card {a : K × K // a.2 * a.2 = a.1 * a.1 * a.1 + curve7.a * a.1 + curve7.b} = 11 by decide]

instance : Fact (Nat.Prime 3) := ⟨by decide⟩
instance : Fact (Nat.Prime 5) := ⟨by decide⟩

abbrev H7 := curve7.torsion 3

theorem card7_torsion : Nat.card H7 = 3 := (C118_order (by decide) card7).1

/-- The point `(0, 1)`, which generates them. -/
def gen7 : H7 := ⟨.some 0 1 (SWCurve.nonsingular curve7_tests (by decide)), (curve7_tests.test _).mp (by decide)⟩

theorem gen7_ne : gen7 ≠ 0 := fun h => absurd (congrArg Subtype.val h) (WeierstrassCurve.Affine.Point.some_ne_zero _)

/-- Logarithms. -/
noncomputable def log7 : H7 ≃+ ZMod 3 := addEquivOfPrimeCardEq card7_torsion (Nat.card_zmod 3)

/-- A pairing. -/
theorem pair7 : ∃ e : H7 →ₗ[ZMod 3] H7 →ₗ[ZMod 3] ZMod 3, (∀ x y, e x y = log7 x * log7 y) ∧ PrimeGroups e :=
  C118_prime card7_torsion card7_torsion (fun x y => log7 x * log7 y) (fun x x' y => by rw [map_add, add_mul])
    (fun x y y' => by rw [map_add, mul_add]) gen7 gen7
    (by have : log7 gen7 ≠ 0 := by simpa using gen7_ne
        exact mul_ne_zero this this)

noncomputable def e3 := pair7.choose
theorem prime3 : PrimeGroups e3 := pair7.choose_spec.2

noncomputable instance : Rng Nat (ZMod 3) H7 H7 where
  randF s := (s, s + 1)
  randG1 s := (s • gen7, s + 1)
  randG2 s := (s • gen7, s + 1)

/-- Generators `(0, 1)` and its double, and the scalars 0, 1, 2, 0. -/
noncomputable def crs3 : CRS H7 H7 (ZMod 3) := (generateCrs e3 (1 : Nat)).1

theorem crs3_generated : GeneratedCrs e3 crs3 := ⟨Nat, _, 1, rfl⟩

theorem crs3_nonzero : crs3.NonzeroGens := by
  have h2 : (2 : Nat) • gen7 ≠ 0 := fun h => gen7_ne (by
    have h3 : (3 : Nat) • gen7 = 0 := Subtype.ext gen7.2
    rw [succ_nsmul, h, zero_add] at h3
    exact h3)
  have h1 : (1 : Nat) • gen7 ≠ 0 := by rw [one_nsmul]; exact gen7_ne
  exact ⟨h1, h2⟩

/-- Scalars modulo 3 in one byte. -/
def scalar3 : Codec (ZMod 3) := (fpCodec 3 1 1).plain
theorem scalar3_lawful : scalar3.Lawful := (C110_fp (p := 3) (by norm_num) (by norm_num)).1.plain
theorem scalar3_valid (a : ZMod 3) : scalar3.Valid a := rfl

theorem ark7 : Represents (curve7.codec fp7) (curve7.rep 3) := C118_ark curve7_tests curve7_lawful fp7_lawful

/-- The same curve, with a test that rejects what is not on it. -/
def curve7s : SWCurve K := { curve7 with inSubgroup := fun P => curve7.onCurve P && curve7.inSubgroup P }

theorem curve7s_lawful : curve7s.Lawful where
  root := curve7_lawful.root
  complete := curve7_lawful.complete
  total := curve7_lawful.total
  antisymm := curve7_lawful.antisymm
  identity := by decide

theorem curve7s_tests : curve7s.Tests 3 where
  smooth := curve7_tests.smooth
  test p := by
    refine Iff.trans ?_ (curve7_tests.test p)
    have h := SWCurve.onCurve_coords curve7_tests p
    have hc : curve7s.coords p = curve7.coords p := by cases p <;> rfl
    rw [hc]
    show (curve7.onCurve (curve7.coords p) && curve7.inSubgroup (curve7.coords p)) = true ↔ _
    rw [h, Bool.true_and]

/-- Its points are the same. -/
def rep7s : H7 → Affine K := curve7s.rep 3

theorem bls7r : Represents (curve7s.blsCodec be7) rep7s :=
  C118_bls curve7s_tests curve7s_lawful be7_lawful fun _ h => ((Bool.and_eq_true _ _).mp h).1

example (a : ZMod 3) (x y : H7) := C118_scalars a x y

/-- The proof is made of points, and is sent in one format for the first group and the other for the second. -/
noncomputable def verify3 (equ : OneEqu (ZMod 3) H7 H7 (ZMod 3)) (msg : CProof (ZMod 3) (Affine K) (Affine K)) : Res Bool :=
  open Classical in
  if h : ∃ cp : CProof (ZMod 3) H7 H7, cp.on (curve7.rep 3) rep7s = msg then equ.verify e3 seqSched crs3 h.choose else .ok false

theorem verify3_on (equ : OneEqu (ZMod 3) H7 H7 (ZMod 3)) (cp : CProof (ZMod 3) H7 H7) :
    verify3 equ (cp.on (curve7.rep 3) rep7s) = equ.verify e3 seqSched crs3 cp := by
  have h : ∃ cp' : CProof (ZMod 3) H7 H7, cp'.on (curve7.rep 3) rep7s = cp.on (curve7.rep 3) rep7s := ⟨cp, rfl⟩
  rw [verify3, dif_pos h, CProof.on_inj ark7.injective bls7r.injective h.choose_spec]

example (m : Compress) (bs rest : Bytes) (msg : CProof (ZMod 3) (Affine K) (Affine K)) :=
  C118_read scalar3_lawful scalar3_valid ark7 bls7r m bs rest msg

/-- `1 · X + y · (0, 1) + y · X`, which at `X = (0, 1)`, `y = 2` is `2 (0, 1)`. -/
noncomputable def msm3 : MSMEG1 (ZMod 3) H7 := ⟨[gen7], [1], [[1]], (2 : ZMod 3) • gen7⟩

theorem msm3_dims : msm3.Dims [gen7].length [(2 : ZMod 3)].length := ⟨rfl, rfl, rfl, by simp [msm3]⟩

theorem msm3_holds : msm3.Holds [gen7] [2] := by
  have h : (2 : ZMod 3) • gen7 + (1 : ZMod 3) • gen7 + (2 : ZMod 3) • (1 : ZMod 3) • gen7 = (2 : ZMod 3) • gen7 := by
    rw [smul_smul, ← add_smul, ← add_smul]
    rfl
  simpa [MSMEG1.Holds, equLhs, msm3] using h

/-- The receiver accepts the bytes of an honest proof, and what it accepted is proved. -/
example (sch : Nat → Scheduler) (m : Compress) : ∃ cp rng' bs, msm3.commitAndProve sch [gen7] [2] crs3 (5 : Nat) = .ok (cp, rng') ∧
    receive scalar3 (curve7.codec fp7) (curve7s.blsCodec be7) m .Yes bs (verify3 (.msmeg1 msm3)) = .ok (.ok true) ∧
    ∃ (cp' : CProof (ZMod 3) H7 H7) (rest : Bytes),
      (CProof.codec scalar3 (curve7.codec fp7) (curve7s.blsCodec be7)).de m .Yes bs = .ok (cp'.on (curve7.rep 3) rep7s, rest) ∧
      (OneEqu.msmeg1 msm3).Proved e3 crs3 cp' := by
  obtain ⟨cp, rng', h, hr⟩ := (C118_honest scalar3_lawful scalar3_valid ark7 bls7r sch seqSched crs3 rfl rfl (5 : Nat) m .Yes [7, 7] verify3
    verify3_on).2.1 msm3 [gen7] [2] (by simp) (by simp) (by simp [Fits64]) (by simp [Fits64]) msm3_dims msm3_holds
  exact ⟨cp, rng', _, h, hr, C118_sound prime3 scalar3_lawful scalar3_valid ark7 bls7r seqSched crs3 crs3_generated crs3_nonzero _ m _ _
    (verify3_on _) hr⟩

/-- A test for the points of `curve11` that are killed by 5. -/
noncomputable def curve11s : SWCurve K11 :=
  { curve11 with inSubgroup := fun P => @decide (∃ p : curve11.curve.Point, curve11.coords p = P ∧ 5 • p = 0) (Classical.dec _) }

theorem curve11s_tests : curve11s.Tests 5 where
  smooth := by decide
  test p := by
    have hc : curve11s.coords p = curve11.coords p := by cases p <;> rfl
    rw [hc]
    simp only [curve11s, decide_eq_true_eq]
    exact ⟨fun ⟨q, hq, h⟩ => SWCurve.coords_injective hq ▸ h, fun h => ⟨p, rfl, h⟩⟩

theorem curve11s_lawful : curve11s.Lawful where
  root := curve11_lawful.root
  complete := curve11_lawful.complete
  total := curve11_lawful.total
  antisymm := curve11_lawful.antisymm
  identity := @decide_eq_true _ (Classical.dec _) ⟨.zero, rfl, nsmul_zero 5⟩

theorem card11 : Nat.card curve11s.curve.Point = 5 * 3 := by
  rw [Nat.card_congr (SWCurve.points curve11s_tests)]
  exact (Nat.card_congr pts11).symm.trans (Nat.card_zmod 15)

example : Nat.card (curve11s.torsion 5) = 5 := (C118_order (by decide) card11).1

/-- Multiplication by the cofactor. -/
noncomputable def clear11s (P : Affine K11) : curve11s.torsion 5 :=
  open Classical in
  if h : ∃ p, curve11s.coords p = P then ⟨3 • h.choose, (((C118_order (by decide) card11).2.2 _).mp ⟨_, rfl⟩ : _)⟩ else 0

theorem clear11s_coords (p : curve11s.curve.Point) : (clear11s (curve11s.coords p)).1 = 3 • p := by
  have h : ∃ q, curve11s.coords q = curve11s.coords p := ⟨p, rfl⟩
  rw [clear11s, dif_pos h]
  show 3 • h.choose = 3 • p
  rw [SWCurve.coords_injective h.choose_spec]

example (n : Nat) := C118_generator curve11s_tests curve11s_lawful curve11_noOrderTwo (by decide) card11 clear11s clear11s_coords n

end Ex

end GS
