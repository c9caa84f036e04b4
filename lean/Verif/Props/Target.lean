import Verif.Lemmas.Statement
import Verif.Props.Bls381

/-!
# C121: the CRS and the equation as bytes

The verifier is given the CRS and the equation as bytes too, and they hold elements of the target group. That of BLS12-381, in the field with `p ^ 12`
elements, is modelled here.
-/

set_option linter.unusedSectionVars false

namespace GS

section statements
variable {F H1 H2 GT R1 R2 RT : Type} [Field F] [AddCommGroup GT] [Module F GT] [DecidableEq GT] [AddCommGroup H1] [Module F H1]
  [AddCommGroup H2] [Module F H2] {e : H1 →ₗ[F] H2 →ₗ[F] GT} {cF : Codec F} {c1 : Codec R1} {c2 : Codec R2} {cT : Codec RT} {j1 : H1 → R1} {j2 : H2 → R2}
  {jT : GT → RT}

/-- C121: a CRS that is read with validation represents one over the groups, and only one. -/
theorem C121_crs (h1 : Represents c1 j1) (h2 : Represents c2 j2) (hT : Represents cT jT) (m : Compress) (bs rest : Bytes) (x : CRS R1 R2 RT) :
    (CRS.codec c1 c2 cT).de m .Yes bs = .ok (x, rest) ↔
      (CRS.codec c1 c2 cT).de m .No bs = .ok (x, rest) ∧ ∃! crs : CRS H1 H2 GT, x = crs.rep j1 j2 jT := by
  rw [crs_inside h1 h2 hT]
  refine and_congr_right fun _ => ⟨?_, fun ⟨crs, h, _⟩ => ⟨crs, h⟩⟩
  rintro ⟨crs, rfl⟩
  exact ⟨crs, rfl, fun crs' h => (CRS.rep_injective h1.injective h2.injective hT.injective h).symm⟩

/-- C121: so does an equation. -/
theorem C121_equation (hF : cF.Lawful) (hFv : ∀ a, cF.Valid a) (h1 : Represents c1 j1) (h2 : Represents c2 j2) (hT : Represents cT jT) (k : EquType) (m : Compress)
    (bs rest : Bytes) (x : OneEqu F R1 R2 RT) :
    OneEqu.de cF c1 c2 cT k m .Yes bs = .ok (x, rest) ↔
      OneEqu.de cF c1 c2 cT k m .No bs = .ok (x, rest) ∧ ∃! equ : OneEqu F H1 H2 GT, x = equ.rep j1 j2 jT := by
  rw [equ_inside hF hFv h1 h2 hT]
  refine and_congr_right fun _ => ⟨?_, fun ⟨equ, h, _⟩ => ⟨equ, h⟩⟩
  rintro ⟨equ, rfl⟩
  exact ⟨equ, rfl, fun equ' h => (OneEqu.rep_injective h1.injective h2.injective hT.injective h).symm⟩

/-- C121: from the bytes of a CRS, an equation and a message, the verifier answers what it answers in memory, in both forms, with or without
validation, whatever follows. -/
theorem C121_same (hF : cF.Lawful) (hFv : ∀ a, cF.Valid a) (h1 : Represents c1 j1) (h2 : Represents c2 j2) (hT : Represents cT jT)
    (crs : CRS H1 H2 GT) (hc : crs.Fits) (equ : OneEqu F H1 H2 GT) (hq : equ.Fits) (cp : CProof F H1 H2) (hp : cp.Fits) (m : Compress) (v : Validate)
    (rC rE rP : Bytes) (verify : CRS R1 R2 RT → OneEqu F R1 R2 RT → CProof F R1 R2 → Res Bool) :
    receiveAll cF c1 c2 cT equ.kind m v ((CRS.codec c1 c2 cT).ser m (crs.rep j1 j2 jT) ++ rC) ((equ.rep j1 j2 jT).ser cF c1 c2 cT m ++ rE)
      ((CProof.codec cF c1 c2).ser m (cp.on j1 j2) ++ rP) verify = .ok (verify (crs.rep j1 j2 jT) (equ.rep j1 j2 jT) (cp.on j1 j2)) :=
  receiveAll_ok.mpr ⟨_, rC, _, rE, _, rP, CRS.round_rep h1 h2 hT m v crs hc rC, OneEqu.round_rep hF hFv h1 h2 hT m v equ hq rE,
    C109_round_message hF.orderly h1.orderly h2.orderly m v _ (CProof.fits_on.mpr hp)
      (elems_rep (fun a rest => hF.round m .No a rest (by simp)) (h1.returns m) (h2.returns m) cp) (fun _ => elems_rep hFv h1.valid h2.valid cp) rP, rfl⟩

/-- C121, soundness from bytes: the CRS is one that `generate_crs` returned, with generators that are not zero. If the verifier validates, and accepts any bytes as
equation and message, they are those of an equation over the groups and of commitments that open to values that satisfy it. -/
theorem C121_sound (hp : PrimeGroups e) (hF : cF.Lawful) (hFv : ∀ a, cF.Valid a) (h1 : Represents c1 j1) (h2 : Represents c2 j2) (hT : Represents cT jT)
    (sch : Scheduler) (crs : CRS H1 H2 GT) (hc : GeneratedCrs e crs) (h0 : crs.NonzeroGens) (k : EquType) (m : Compress) (rC bsE bsP : Bytes)
    (verify : CRS R1 R2 RT → OneEqu F R1 R2 RT → CProof F R1 R2 → Res Bool)
    (hv : ∀ (crs : CRS H1 H2 GT) (equ : OneEqu F H1 H2 GT) (cp : CProof F H1 H2), verify (crs.rep j1 j2 jT) (equ.rep j1 j2 jT) (cp.on j1 j2) = equ.verify e sch crs cp)
    (h : receiveAll cF c1 c2 cT k m .Yes ((CRS.codec c1 c2 cT).ser m (crs.rep j1 j2 jT) ++ rC) bsE bsP verify = .ok (.ok true)) :
    ∃ (equ : OneEqu F H1 H2 GT) (rE : Bytes) (cp : CProof F H1 H2) (rP : Bytes), equ.kind = k ∧
      OneEqu.de cF c1 c2 cT k m .Yes bsE = .ok (equ.rep j1 j2 jT, rE) ∧ (CProof.codec cF c1 c2).de m .Yes bsP = .ok (cp.on j1 j2, rP) ∧ equ.Proved e crs cp := by
  obtain ⟨crs', rC', equ', rE, cp', rP, dC, dE, dP, hw⟩ := receiveAll_ok.mp h
  rw [CRS.round_rep h1 h2 hT m .Yes crs hc.fits] at dC
  obtain ⟨rfl, rfl⟩ := Prod.mk.inj (Except.ok.inj dC)
  obtain ⟨-, equ, rfl⟩ := (equ_inside hF hFv h1 h2 hT k m bsE rE equ').mp dE
  obtain ⟨-, cp, rfl⟩ := (read_inside hF hFv h1 h2 m bsP rP cp').mp dP
  refine ⟨equ, rE, cp, rP, ?_, dE, dP, OneEqu.proved_of_verify hp hc h0 ((hv crs equ cp).symm.trans hw)⟩
  have := (equ_de_ok.mp dE).1
  cases equ <;> exact this

/-- C121, any CRS: if the verifier validates, and accepts any bytes as CRS, equation and message, they are those of a CRS, an equation and a message over the
groups. If the keys of this CRS have two rows and bind, there are values that satisfy this equation, to which alone the commitments can be opened. -/
theorem C121_any (hp : PrimeGroups e) (hF : cF.Lawful) (hFv : ∀ a, cF.Valid a) (h1 : Represents c1 j1) (h2 : Represents c2 j2) (hT : Represents cT jT)
    (sch : Scheduler) (k : EquType) (m : Compress) (bsC bsE bsP : Bytes) (verify : CRS R1 R2 RT → OneEqu F R1 R2 RT → CProof F R1 R2 → Res Bool)
    (hv : ∀ (crs : CRS H1 H2 GT) (equ : OneEqu F H1 H2 GT) (cp : CProof F H1 H2), verify (crs.rep j1 j2 jT) (equ.rep j1 j2 jT) (cp.on j1 j2) = equ.verify e sch crs cp)
    (h : receiveAll cF c1 c2 cT k m .Yes bsC bsE bsP verify = .ok (.ok true)) :
    ∃ (crs : CRS H1 H2 GT) (rC : Bytes) (equ : OneEqu F H1 H2 GT) (rE : Bytes) (cp : CProof F H1 H2) (rP : Bytes), equ.kind = k ∧
      (CRS.codec c1 c2 cT).de m .Yes bsC = .ok (crs.rep j1 j2 jT, rC) ∧ OneEqu.de cF c1 c2 cT k m .Yes bsE = .ok (equ.rep j1 j2 jT, rE) ∧
      (CProof.codec cF c1 c2).de m .Yes bsP = .ok (cp.on j1 j2, rP) ∧
      (crs.u.length = 2 → crs.v.length = 2 → equ.Binding crs → equ.Extracted e crs cp) := by
  obtain ⟨crs', rC, equ', rE, cp', rP, dC, dE, dP, hw⟩ := receiveAll_ok.mp h
  obtain ⟨-, crs, rfl⟩ := (crs_inside h1 h2 hT m bsC rC crs').mp dC
  obtain ⟨-, equ, rfl⟩ := (equ_inside hF hFv h1 h2 hT k m bsE rE equ').mp dE
  obtain ⟨-, cp, rfl⟩ := (read_inside hF hFv h1 h2 m bsP rP cp').mp dP
  rw [hv crs equ cp] at hw
  refine ⟨crs, rC, equ, rE, cp, rP, ?_, dC, dE, dP, fun hu hv hb => ?_⟩
  · have := (equ_de_ok.mp dE).1
    cases equ <;> exact this
  · cases equ with
    | ppe equ => exact C94_ppe_extract hp hu hv hb.1 hb.2 equ cp sch hw
    | msmeg1 equ => exact C94_msmeg1_extract hp hu hv hb.1 hb.2 equ cp sch hw
    | msmeg2 equ => exact C94_msmeg2_extract hp hu hv hb.1 hb.2 equ cp sch hw
    | quad equ => exact C94_quad_extract hp hu hv hb.1 hb.2 equ cp sch hw

/-- C121: the keys of a CRS that `generate_crs` returned, with generators that are not zero, have two rows and bind, for every equation. -/
theorem C121_binding (hp : PrimeGroups e) (crs : CRS H1 H2 GT) (hc : GeneratedCrs e crs) (h0 : crs.NonzeroGens) (equ : OneEqu F H1 H2 GT) :
    crs.u.length = 2 ∧ crs.v.length = 2 ∧ equ.Binding crs := by
  have hu : crs.u.length = 2 := by obtain ⟨_, _, _, rfl⟩ := hc; rfl
  have hv : crs.v.length = 2 := by obtain ⟨_, _, _, rfl⟩ := hc; rfl
  have : Nontrivial H1 := ⟨_, _, h0.1⟩
  have : Nontrivial H2 := ⟨_, _, h0.2⟩
  obtain ⟨hb1, hb2⟩ := (C94_ppe hp hu hv).mp fun equ cp sch => ((soundCrs_iff hp hc).mpr h0).1 equ cp sch
  have hs1 := C93_group_binding_binds_scalars crs.u crs.g1_gen hu.ge h0.1 hb1
  have hs2 := C93_group_binding_binds_scalars crs.v crs.g2_gen hv.ge h0.2 hb2
  exact ⟨hu, hv, by cases equ <;> exact ⟨by assumption, by assumption⟩⟩

/-- C121, completeness to bytes: the CRS that `generate_crs` returned, an equation with values that satisfy it and what `commit_and_prove` returns for them are accepted,
in both forms, with or without validation, whatever follows. -/
theorem C121_honest {ρ : Type} [Rng ρ F H1 H2] (hF : cF.Lawful) (hFv : ∀ a, cF.Valid a) (h1 : Represents c1 j1) (h2 : Represents c2 j2) (hT : Represents cT jT)
    (sch : Nat → Scheduler) (sch' : Scheduler) (crs : CRS H1 H2 GT) (hc : GeneratedCrs e crs) (rng : ρ) (m : Compress) (v : Validate) (rC rE rP : Bytes)
    (verify : CRS R1 R2 RT → OneEqu F R1 R2 RT → CProof F R1 R2 → Res Bool)
    (hv : ∀ (crs : CRS H1 H2 GT) (equ : OneEqu F H1 H2 GT) (cp : CProof F H1 H2), verify (crs.rep j1 j2 jT) (equ.rep j1 j2 jT) (cp.on j1 j2) = equ.verify e sch' crs cp) :
    let accepts := fun (equ : OneEqu F H1 H2 GT) (cp : CProof F H1 H2) =>
      receiveAll cF c1 c2 cT equ.kind m v ((CRS.codec c1 c2 cT).ser m (crs.rep j1 j2 jT) ++ rC) ((equ.rep j1 j2 jT).ser cF c1 c2 cT m ++ rE)
        ((CProof.codec cF c1 c2).ser m (cp.on j1 j2) ++ rP) verify = .ok (.ok true)
    (∀ (equ : PPE F H1 H2 GT) x y, x ≠ [] → y ≠ [] → Fits64 x → Fits64 y → equ.Dims x.length y.length → equ.Holds e x y →
      ∃ cp rng', equ.commitAndProve sch x y crs rng = .ok (cp, rng') ∧ accepts (.ppe equ) cp) ∧
    (∀ (equ : MSMEG1 F H1) x y, x ≠ [] → y ≠ [] → Fits64 x → Fits64 y → equ.Dims x.length y.length → equ.Holds x y →
      ∃ cp rng', equ.commitAndProve sch x y crs rng = .ok (cp, rng') ∧ accepts (.msmeg1 equ) cp) ∧
    (∀ (equ : MSMEG2 F H2) x y, x ≠ [] → y ≠ [] → Fits64 x → Fits64 y → equ.Dims x.length y.length → equ.Holds x y →
      ∃ cp rng', equ.commitAndProve sch x y crs rng = .ok (cp, rng') ∧ accepts (.msmeg2 equ) cp) ∧
    (∀ (equ : QuadEqu F) x y, x ≠ [] → y ≠ [] → Fits64 x → Fits64 y → equ.Dims x.length y.length → equ.Holds x y →
      ∃ cp rng', equ.commitAndProve sch x y crs rng = .ok (cp, rng') ∧ accepts (.quad equ) cp) := by
  intro accepts
  have hu : crs.u.length = 2 := by obtain ⟨_, _, _, rfl⟩ := hc; rfl
  have hv' : crs.v.length = 2 := by obtain ⟨_, _, _, rfl⟩ := hc; rfl
  have sent : ∀ (cp : CProof F H1 H2) (equ : OneEqu F H1 H2 GT), cp.Fits → equ.Fits → equ.verify e sch' crs cp = .ok true → accepts equ cp := by
    intro cp equ hf hq hw
    show receiveAll _ _ _ _ _ _ _ _ _ _ _ = _
    rw [C121_same hF hFv h1 h2 hT crs hc.fits equ hq cp hf, hv, hw]
  refine ⟨fun equ x y hx hy fx fy hd hs => ?_, fun equ x y hx hy fx fy hd hs => ?_, fun equ x y hx hy fx fy hd hs => ?_,
    fun equ x y hx hy fx fy hd hs => ?_⟩
  · obtain ⟨cp, rng', h, hw⟩ := C01_ppe_complete e equ x y crs rng sch sch' hx hy hd hu hv' hs
    exact ⟨cp, rng', h, sent cp (.ppe equ) ((commit_and_prove_fits sch crs rng rng' cp).1 equ x y fx fy h)
      ((equ_fits _ _ fx fy).1 equ hd) hw⟩
  · obtain ⟨cp, rng', h, hw⟩ := C02_msmeg1_complete e equ x y crs rng sch sch' hx hy hd hu hv' hs
    exact ⟨cp, rng', h, sent cp (.msmeg1 equ) ((commit_and_prove_fits sch crs rng rng' cp).2.1 equ x y fx fy h)
      ((equ_fits (H1 := H1) (H2 := H2) (GT := GT) _ _ fx fy).2.1 equ hd) hw⟩
  · obtain ⟨cp, rng', h, hw⟩ := C03_msmeg2_complete e equ x y crs rng sch sch' hx hy hd hu hv' hs
    exact ⟨cp, rng', h, sent cp (.msmeg2 equ) ((commit_and_prove_fits sch crs rng rng' cp).2.2.1 equ x y fx fy h)
      ((equ_fits (H1 := H1) (H2 := H2) (GT := GT) _ _ fx fy).2.2.1 equ hd) hw⟩
  · obtain ⟨cp, rng', h, hw⟩ := C04_quad_complete e equ x y crs rng sch sch' hx hy hd hu hv' hs
    exact ⟨cp, rng', h, sent cp (.quad equ) ((commit_and_prove_fits sch crs rng rng' cp).2.2.2 equ x y fx fy h)
      ((equ_fits (H1 := H1) (H2 := H2) (GT := GT) _ _ fx fy).2.2.2 equ hd) hw⟩

end statements

/-! ### BLS12-381 -/

section bls

/-- C121: the target field is a field with `p ^ 12` elements, twelve elements of the prime field each. -/
theorem C121_field : IsField (Fq12 (ZMod p381)) ∧ Nat.card (Fq12 (ZMod p381)) = p381 ^ 12 ∧ r381 ∣ p381 ^ 12 - 1 :=
  ⟨Field.toIsField _, fq12_card card_fq, Nat.dvd_of_mod_eq_zero two_exps.2.2.2.2.2.2.2.2.2.2.1⟩

/-- C121: `check` of elements of the target group accepts the powers of one element. There are `r` of them; they are a group, written additively, on which
scalars act by powers. -/
theorem C121_target :
    (∃ g : Fq12 (ZMod p381), ∀ f, inGt r381 f = true ↔ ∃ k < r381, g ^ k = f) ∧ Nat.card {f : Fq12 (ZMod p381) // inGt r381 f = true} = r381 ∧
    Function.Injective (gtRep (K := ZMod p381)) ∧ (∀ f, inGt r381 f = true ↔ ∃ x : Gt (ZMod p381), gtRep x = f) ∧
    (∀ x y : Gt (ZMod p381), gtRep (x + y) = gtRep x * gtRep y) ∧ ∀ (a : ZMod r381) (x : Gt (ZMod p381)), gtRep (a • x) = gtRep x ^ a.val := by
  obtain ⟨g, hg⟩ := gt_primitive (K := ZMod p381) card_fq
  have := Fact.mk r381_prime
  have hin : ∀ f : Fq12 (ZMod p381), inGt r381 f = true ↔ f ^ r381 = 1 := fun f => by simp [inGt]
  have hpow : ∀ f : Fq12 (ZMod p381), f ^ r381 = 1 ↔ ∃ k < r381, g ^ k = f := fun f => by
    constructor
    · exact fun h => hg.eq_pow_of_pow_eq_one h
    · rintro ⟨k, -, rfl⟩
      rw [← pow_mul, mul_comm, pow_mul, hg.pow_eq_one, one_pow]
  have hinj : Function.Injective (gtRep (K := ZMod p381)) := fun x y h => Additive.toMul.injective (Subtype.ext (Units.ext h))
  have hex : ∀ f : Fq12 (ZMod p381), inGt r381 f = true ↔ ∃ x : Gt (ZMod p381), gtRep x = f := fun f => by
    rw [hin]
    constructor
    · intro h
      refine ⟨Additive.ofMul ⟨Units.ofPowEqOne f r381 h r381_prime.ne_zero, ?_⟩, rfl⟩
      rw [mem_rootsOfUnity]
      exact Units.ext (by simpa using h)
    · rintro ⟨x, rfl⟩
      have := congrArg (fun u : (Fq12 (ZMod p381))ˣ => (u : Fq12 (ZMod p381))) ((mem_rootsOfUnity _ _).mp (Additive.toMul x).2)
      simpa [gtRep] using this
  refine ⟨⟨g, fun f => (hin f).trans (hpow f)⟩, ?_, hinj, hex, fun x y => rfl, fun a x => ?_⟩
  · have hb : Function.Bijective (fun k : Fin r381 => (⟨g ^ k.val, (hin _).mpr ((hpow _).mpr ⟨k, k.2, rfl⟩)⟩ : {f : Fq12 (ZMod p381) // inGt r381 f = true})) := by
      constructor
      · intro k k' h
        exact Fin.ext (hg.pow_inj k.2 k'.2 (Subtype.ext_iff.mp h))
      · rintro ⟨f, hf⟩
        obtain ⟨k, hk, rfl⟩ := (hpow f).mp ((hin f).mp hf)
        exact ⟨⟨k, hk⟩, rfl⟩
    rw [← Nat.card_congr (Equiv.ofBijective _ hb), Nat.card_fin]
  · have : a • x = a.val • x := by
      conv_lhs => rw [← ZMod.natCast_zmod_val a]
      exact Nat.cast_smul_eq_nsmul _ _ _
    rw [this]
    rfl

theorem blsFq12_lawful : blsFq12.Lawful :=
  C110_quad (C110_cubic (C110_quad (C110_fp (by decide +kernel) (by decide +kernel)).1 _ _ (fun _ => rfl) fun _ => rfl) _ _
    (fun a => Equiv.symm_apply_apply fq6Equiv a) fun a => Equiv.apply_symm_apply fq6Equiv a) _ _ (fun _ => rfl) fun _ => rfl

theorem blsGt_lawful : blsGt.Lawful := (C110_output blsFq12_lawful.plain blsFq12_lawful.canonical (inGt r381)).1

/-- C121: elements of the target group are written in 576 bytes, and are read back. With validation nothing else is read, and every element from one string only. -/
theorem C121_gt : Represents blsGt (gtRep (K := ZMod p381)) ∧ blsGt.Canonical ∧ ∀ m f, (blsGt.ser m f).length = 576 := by
  obtain ⟨h1, h2, h3⟩ := C110_output blsFq12_lawful.plain blsFq12_lawful.canonical (inGt r381)
  obtain ⟨-, -, k1, k2, -⟩ := C121_target
  refine ⟨⟨h1.orderly, k1, fun m x rest => h1.round m .No _ rest (by simp), fun x => (h3 _).mpr ((k2 _).mpr ⟨x, rfl⟩), fun m bs a rest hd => ?_⟩, h2, fun m f => ?_⟩
  · exact (k2 a).mp ((h3 a).mp ((h1.orderly.validate m bs a rest).mp hd).2)
  · simp [blsGt, outputCodec, blsFq12, quadCodec, cubicCodec, structCodec, prodCodec, fpCodec, length_leBytes]

/-- The codec of CRSs. -/
noncomputable abbrev blsCrsCodec := CRS.codec (blsG1.blsCodec blsFq) (blsG2.blsCodec blsFq2) blsGt

/-- Reading an equation. -/
noncomputable abbrev blsEquDe := OneEqu.de blsFr (blsG1.blsCodec blsFq) (blsG2.blsCodec blsFq2) blsGt

/-- `check` accepts the equation. -/
abbrev BlsEquValid := OneEqu.Valid blsFr (blsG1.blsCodec blsFq) (blsG2.blsCodec blsFq2) blsGt

/-- A CRS whose points are represented. -/
noncomputable abbrev blsCrsRep : CRS (blsG1.torsion r381) (blsG2.torsion r381) (Gt (ZMod p381)) → CRS (Affine (ZMod p381)) (Affine (Fq2 (ZMod p381))) (Fq12 (ZMod p381)) :=
  CRS.rep (blsG1.rep r381) (blsG2.rep r381) gtRep

/-- An equation whose points are represented. -/
noncomputable abbrev blsEquRep : OneEqu (ZMod r381) (blsG1.torsion r381) (blsG2.torsion r381) (Gt (ZMod p381)) →
    OneEqu (ZMod r381) (Affine (ZMod p381)) (Affine (Fq2 (ZMod p381))) (Fq12 (ZMod p381)) :=
  OneEqu.rep (blsG1.rep r381) (blsG2.rep r381) gtRep

theorem bls1_represents : Represents (blsG1.blsCodec blsFq).strict (blsG1.rep r381) := strict_represents blsG1_tests blsG1_lawful blsFq_lawful
theorem bls2_represents : Represents (blsG2.blsCodec blsFq2).strict (blsG2.rep r381) := strict_represents blsG2_tests blsG2_lawful blsFq2_lawful

/-- C121, BLS12-381: the CRSs that are read with validation and then pass `check` are those over the groups. In compressed form they need not be checked. -/
theorem C121_bls_crs (m : Compress) (bs rest : Bytes) (x : CRS (Affine (ZMod p381)) (Affine (Fq2 (ZMod p381))) (Fq12 (ZMod p381))) :
    (blsCrsCodec.de m .Yes bs = .ok (x, rest) ∧ blsCrsCodec.Valid x ↔ blsCrsCodec.de m .No bs = .ok (x, rest) ∧ ∃! crs, x = blsCrsRep crs) ∧
    (blsCrsCodec.de .Yes .Yes bs = .ok (x, rest) → blsCrsCodec.Valid x) := by
  refine ⟨?_, crs_compressed blsG1_lawful blsFq_lawful blsG2_lawful blsFq2_lawful C121_gt.1.orderly bs rest x⟩
  have hs := strictly_crs blsG1_lawful blsFq_lawful blsG2_lawful blsFq2_lawful C121_gt.1.orderly
  have h := C121_crs bls1_represents bls2_represents C121_gt.1 m bs rest x
  rw [hs, hs] at h
  simp only [forall_const, reduceCtorEq, false_implies, and_true] at h
  exact h

/-- C121, BLS12-381: so are the equations. In compressed form they need not be checked, nor do pairing product and quadratic equations in uncompressed form. -/
theorem C121_bls_equation (k : EquType) (m : Compress) (bs rest : Bytes) (x : OneEqu (ZMod r381) (Affine (ZMod p381)) (Affine (Fq2 (ZMod p381))) (Fq12 (ZMod p381))) :
    (blsEquDe k m .Yes bs = .ok (x, rest) ∧ BlsEquValid x ↔ blsEquDe k m .No bs = .ok (x, rest) ∧ ∃! equ, x = blsEquRep equ) ∧
    (m = .Yes ∨ k = .PairingProduct ∨ k = .Quadratic → blsEquDe k m .Yes bs = .ok (x, rest) → BlsEquValid x) := by
  refine ⟨?_, fun hm => equ_compressed blsG1_lawful blsFq_lawful blsG2_lawful blsFq2_lawful blsFr_lawful.orderly C121_gt.1.orderly k m hm bs rest x⟩
  have hs := strictly_equ blsG1_lawful blsFq_lawful blsG2_lawful blsFq2_lawful blsFr_lawful.orderly C121_gt.1.orderly k m
  have h := C121_equation blsFr_lawful blsFr_valid bls1_represents bls2_represents C121_gt.1 k m bs rest x
  rw [hs, hs] at h
  simp only [forall_const, reduceCtorEq, false_implies, and_true] at h
  exact h

variable {e : blsG1.torsion r381 →ₗ[ZMod r381] blsG2.torsion r381 →ₗ[ZMod r381] Gt (ZMod p381)}

/-- C121, BLS12-381: soundness from bytes, for a CRS of `generate_crs`. Multi-scalar equations in uncompressed form have to pass `check` as well. -/
theorem C121_bls_sound (he : e ≠ 0) (sch : Scheduler) (crs : CRS (blsG1.torsion r381) (blsG2.torsion r381) (Gt (ZMod p381))) (hc : GeneratedCrs e crs)
    (h0 : crs.NonzeroGens) (k : EquType) (m : Compress) (rC bsE bsP : Bytes)
    (hm : m = .Yes ∨ k = .PairingProduct ∨ k = .Quadratic ∨ ∀ x rest, blsEquDe k m .Yes bsE = .ok (x, rest) → BlsEquValid x)
    (verify : CRS (Affine (ZMod p381)) (Affine (Fq2 (ZMod p381))) (Fq12 (ZMod p381)) → OneEqu (ZMod r381) (Affine (ZMod p381)) (Affine (Fq2 (ZMod p381))) (Fq12 (ZMod p381)) →
      CProof (ZMod r381) (Affine (ZMod p381)) (Affine (Fq2 (ZMod p381))) → Res Bool)
    (hv : ∀ crs equ cp, verify (blsCrsRep crs) (blsEquRep equ) (blsMessage cp) = equ.verify e sch crs cp)
    (h : receiveAll blsFr (blsG1.blsCodec blsFq) (blsG2.blsCodec blsFq2) blsGt k m .Yes (blsCrsCodec.ser m (blsCrsRep crs) ++ rC) bsE bsP verify = .ok (.ok true)) :
    ∃ equ rE cp rP, equ.kind = k ∧ blsEquDe k m .Yes bsE = .ok (blsEquRep equ, rE) ∧
      (CProof.codec blsFr (blsG1.blsCodec blsFq) (blsG2.blsCodec blsFq2)).de m .Yes bsP = .ok (blsMessage cp, rP) ∧ equ.Proved e crs cp := by
  have hE : ∀ x rest, blsEquDe k m .Yes bsE = .ok (x, rest) → BlsEquValid x := by
    rcases hm with hm | hm | hm | hm
    · exact fun x rest => (C121_bls_equation k m bsE rest x).2 (.inl hm)
    · exact fun x rest => (C121_bls_equation k m bsE rest x).2 (.inr (.inl hm))
    · exact fun x rest => (C121_bls_equation k m bsE rest x).2 (.inr (.inr hm))
    · exact hm
  have hC := CRS.round_rep bls1_represents bls2_represents C121_gt.1 m .Yes crs hc.fits rC
  have hC' := (strictly_crs blsG1_lawful blsFq_lawful blsG2_lawful blsFq2_lawful C121_gt.1.orderly _ _ _ _ _).mp hC
  have hst := (receiveAll_strict blsG1_lawful blsFq_lawful blsG2_lawful blsFq2_lawful blsFr_lawful.orderly C121_gt.1.orderly).mpr ⟨h, fun _ => ⟨fun x rest hx => by
    obtain ⟨rfl, rfl⟩ := Prod.mk.inj (Except.ok.inj (hx.symm.trans hC'.1))
    exact hC'.2 rfl, hE⟩⟩
  obtain ⟨equ, rE, cp, rP, k1, k2, k3, k4⟩ := C121_sound (blsPrime he) blsFr_lawful blsFr_valid bls1_represents bls2_represents C121_gt.1 sch crs hc h0 k m rC bsE bsP
    verify hv hst
  exact ⟨equ, rE, cp, rP, k1, ((strictly_equ blsG1_lawful blsFq_lawful blsG2_lawful blsFq2_lawful blsFr_lawful.orderly C121_gt.1.orderly _ _ _ _ _ _).mp k2).1,
    by rw [message_strict]; exact k3, k4⟩

/-- C121, BLS12-381: any CRS. CRSs in uncompressed form have to pass `check` as well. -/
theorem C121_bls_any (he : e ≠ 0) (sch : Scheduler) (k : EquType) (m : Compress) (bsC bsE bsP : Bytes)
    (hm : m = .Yes ∨ (∀ x rest, blsCrsCodec.de m .Yes bsC = .ok (x, rest) → blsCrsCodec.Valid x) ∧
      (k = .PairingProduct ∨ k = .Quadratic ∨ ∀ x rest, blsEquDe k m .Yes bsE = .ok (x, rest) → BlsEquValid x))
    (verify : CRS (Affine (ZMod p381)) (Affine (Fq2 (ZMod p381))) (Fq12 (ZMod p381)) → OneEqu (ZMod r381) (Affine (ZMod p381)) (Affine (Fq2 (ZMod p381))) (Fq12 (ZMod p381)) →
      CProof (ZMod r381) (Affine (ZMod p381)) (Affine (Fq2 (ZMod p381))) → Res Bool)
    (hv : ∀ crs equ cp, verify (blsCrsRep crs) (blsEquRep equ) (blsMessage cp) = equ.verify e sch crs cp)
    (h : receiveAll blsFr (blsG1.blsCodec blsFq) (blsG2.blsCodec blsFq2) blsGt k m .Yes bsC bsE bsP verify = .ok (.ok true)) :
    ∃ crs rC equ rE cp rP, equ.kind = k ∧ blsCrsCodec.de m .Yes bsC = .ok (blsCrsRep crs, rC) ∧ blsEquDe k m .Yes bsE = .ok (blsEquRep equ, rE) ∧
      (CProof.codec blsFr (blsG1.blsCodec blsFq) (blsG2.blsCodec blsFq2)).de m .Yes bsP = .ok (blsMessage cp, rP) ∧
      (crs.u.length = 2 → crs.v.length = 2 → equ.Binding crs → equ.Extracted e crs cp) := by
  have hC : ∀ x rest, blsCrsCodec.de m .Yes bsC = .ok (x, rest) → blsCrsCodec.Valid x := by
    rcases hm with rfl | hm
    · exact fun x rest => (C121_bls_crs .Yes bsC rest x).2
    · exact hm.1
  have hE : ∀ x rest, blsEquDe k m .Yes bsE = .ok (x, rest) → BlsEquValid x := by
    rcases hm with hm | ⟨-, hm | hm | hm⟩
    · exact fun x rest => (C121_bls_equation k m bsE rest x).2 (.inl hm)
    · exact fun x rest => (C121_bls_equation k m bsE rest x).2 (.inr (.inl hm))
    · exact fun x rest => (C121_bls_equation k m bsE rest x).2 (.inr (.inr hm))
    · exact hm
  obtain ⟨crs, rC, equ, rE, cp, rP, k0, k1, k2, k3, k4⟩ := C121_any (blsPrime he) blsFr_lawful blsFr_valid bls1_represents bls2_represents C121_gt.1 sch k m bsC bsE bsP
    verify hv ((receiveAll_strict blsG1_lawful blsFq_lawful blsG2_lawful blsFq2_lawful blsFr_lawful.orderly C121_gt.1.orderly).mpr ⟨h, fun _ => ⟨hC, hE⟩⟩)
  exact ⟨crs, rC, equ, rE, cp, rP, k0, ((strictly_crs blsG1_lawful blsFq_lawful blsG2_lawful blsFq2_lawful C121_gt.1.orderly _ _ _ _ _).mp k1).1,
    ((strictly_equ blsG1_lawful blsFq_lawful blsG2_lawful blsFq2_lawful blsFr_lawful.orderly C121_gt.1.orderly _ _ _ _ _ _).mp k2).1,
      by rw [message_strict]; exact k3, k4⟩

/-- C121, BLS12-381: completeness to bytes. -/
theorem C121_bls_honest {ρ : Type} [Rng ρ (ZMod r381) (blsG1.torsion r381) (blsG2.torsion r381)] (sch : Nat → Scheduler) (sch' : Scheduler)
    (crs : CRS (blsG1.torsion r381) (blsG2.torsion r381) (Gt (ZMod p381))) (hc : GeneratedCrs e crs) (rng : ρ) (m : Compress) (v : Validate) (rC rE rP : Bytes)
    (verify : CRS (Affine (ZMod p381)) (Affine (Fq2 (ZMod p381))) (Fq12 (ZMod p381)) → OneEqu (ZMod r381) (Affine (ZMod p381)) (Affine (Fq2 (ZMod p381))) (Fq12 (ZMod p381)) →
      CProof (ZMod r381) (Affine (ZMod p381)) (Affine (Fq2 (ZMod p381))) → Res Bool)
    (hv : ∀ crs equ cp, verify (blsCrsRep crs) (blsEquRep equ) (blsMessage cp) = equ.verify e sch' crs cp) :
    let accepts := fun equ cp => receiveAll blsFr (blsG1.blsCodec blsFq) (blsG2.blsCodec blsFq2) blsGt equ.kind m v (blsCrsCodec.ser m (blsCrsRep crs) ++ rC)
      ((blsEquRep equ).ser blsFr (blsG1.blsCodec blsFq) (blsG2.blsCodec blsFq2) blsGt m ++ rE)
      ((CProof.codec blsFr (blsG1.blsCodec blsFq) (blsG2.blsCodec blsFq2)).ser m (blsMessage cp) ++ rP) verify = .ok (.ok true)
    (∀ (equ : PPE (ZMod r381) (blsG1.torsion r381) (blsG2.torsion r381) (Gt (ZMod p381))) x y, x ≠ [] → y ≠ [] → Fits64 x → Fits64 y → equ.Dims x.length y.length →
      equ.Holds e x y → ∃ cp rng', equ.commitAndProve sch x y crs rng = .ok (cp, rng') ∧ accepts (.ppe equ) cp) ∧
    (∀ (equ : MSMEG1 (ZMod r381) (blsG1.torsion r381)) x y, x ≠ [] → y ≠ [] → Fits64 x → Fits64 y → equ.Dims x.length y.length →
      equ.Holds x y → ∃ cp rng', equ.commitAndProve sch x y crs rng = .ok (cp, rng') ∧ accepts (.msmeg1 equ) cp) ∧
    (∀ (equ : MSMEG2 (ZMod r381) (blsG2.torsion r381)) x y, x ≠ [] → y ≠ [] → Fits64 x → Fits64 y → equ.Dims x.length y.length →
      equ.Holds x y → ∃ cp rng', equ.commitAndProve sch x y crs rng = .ok (cp, rng') ∧ accepts (.msmeg2 equ) cp) ∧
    (∀ (equ : QuadEqu (ZMod r381)) x y, x ≠ [] → y ≠ [] → Fits64 x → Fits64 y → equ.Dims x.length y.length →
      equ.Holds x y → ∃ cp rng', equ.commitAndProve sch x y crs rng = .ok (cp, rng') ∧ accepts (.quad equ) cp) := by
  intro accepts
  have key : ∀ equ cp, receiveAll blsFr (blsG1.blsCodec blsFq).strict (blsG2.blsCodec blsFq2).strict blsGt equ.kind m v
      ((CRS.codec (blsG1.blsCodec blsFq).strict (blsG2.blsCodec blsFq2).strict blsGt).ser m (blsCrsRep crs) ++ rC)
      ((blsEquRep equ).ser blsFr (blsG1.blsCodec blsFq).strict (blsG2.blsCodec blsFq2).strict blsGt m ++ rE)
      ((CProof.codec blsFr (blsG1.blsCodec blsFq).strict (blsG2.blsCodec blsFq2).strict).ser m (blsMessage cp) ++ rP) verify = .ok (.ok true) → accepts equ cp := by
    intro equ cp h
    have := ((receiveAll_strict blsG1_lawful blsFq_lawful blsG2_lawful blsFq2_lawful blsFr_lawful.orderly C121_gt.1.orderly).mp h).1
    cases equ <;> exact this
  obtain ⟨k1, k2, k3, k4⟩ := C121_honest (j1 := blsG1.rep r381) (j2 := blsG2.rep r381) (jT := gtRep) blsFr_lawful blsFr_valid bls1_represents bls2_represents C121_gt.1
    sch sch' crs hc rng m v rC rE rP verify hv
  refine ⟨fun equ x y hx hy fx fy hd hs => ?_, fun equ x y hx hy fx fy hd hs => ?_, fun equ x y hx hy fx fy hd hs => ?_,
    fun equ x y hx hy fx fy hd hs => ?_⟩
  · obtain ⟨cp, rng', h, hw⟩ := k1 equ x y hx hy fx fy hd hs
    exact ⟨cp, rng', h, key _ _ hw⟩
  · obtain ⟨cp, rng', h, hw⟩ := k2 equ x y hx hy fx fy hd hs
    exact ⟨cp, rng', h, key _ _ hw⟩
  · obtain ⟨cp, rng', h, hw⟩ := k3 equ x y hx hy fx fy hd hs
    exact ⟨cp, rng', h, key _ _ hw⟩
  · obtain ⟨cp, rng', h, hw⟩ := k4 equ x y hx hy fx fy hd hs
    exact ⟨cp, rng', h, key _ _ hw⟩

open scoped Classical in
/-- C121, BLS12-381: an attacker chooses the bytes of an equation and of a message, in compressed form, after seeing a CRS with generators drawn by the sampler. With probability
less than `1 / 2 ^ 253` the verifier accepts them although they are not those of an equation over the groups and of commitments that open to values that satisfy it. -/
theorem C121_bls_adaptive_soundness (he : e ≠ 0) {n : Nat} (hn : 0 < n) (rC : Bytes)
    (verify : CRS (Affine (ZMod p381)) (Affine (Fq2 (ZMod p381))) (Fq12 (ZMod p381)) → OneEqu (ZMod r381) (Affine (ZMod p381)) (Affine (Fq2 (ZMod p381))) (Fq12 (ZMod p381)) →
      CProof (ZMod r381) (Affine (ZMod p381)) (Affine (Fq2 (ZMod p381))) → Res Bool)
    (sch : Scheduler) (hv : ∀ crs equ cp, verify (blsCrsRep crs) (blsEquRep equ) (blsMessage cp) = equ.verify e sch crs cp)
    (A : CRS (blsG1.torsion r381) (blsG2.torsion r381) (Gt (ZMod p381)) → EquType × Bytes × Bytes) :
    sampledGame e blsG1 (blsG1.byCofactor r381 cofactor1) blsG2 (blsG2.byCofactor r381 cofactor2) n (fun crs =>
      if receiveAll blsFr (blsG1.blsCodec blsFq) (blsG2.blsCodec blsFq2) blsGt (A crs).1 .Yes .Yes (blsCrsCodec.ser .Yes (blsCrsRep crs) ++ rC) (A crs).2.1 (A crs).2.2 verify =
          .ok (.ok true) ∧
        ¬ ∃ equ rE cp rP, equ.kind = (A crs).1 ∧ blsEquDe (A crs).1 .Yes .Yes (A crs).2.1 = .ok (blsEquRep equ, rE) ∧
          (CProof.codec blsFr (blsG1.blsCodec blsFq) (blsG2.blsCodec blsFq2)).de .Yes .Yes (A crs).2.2 = .ok (blsMessage cp, rP) ∧ equ.Proved e crs cp then 1 else 0) <
      1 / 2 ^ 253 := by
  rw [sampledGame_generated (D' := fun crs => if (receiveAll blsFr (blsG1.blsCodec blsFq) (blsG2.blsCodec blsFq2) blsGt (A crs).1 .Yes .Yes
        (blsCrsCodec.ser .Yes (blsCrsRep crs) ++ rC) (A crs).2.1 (A crs).2.2 verify = .ok (.ok true) ∧
        ¬ ∃ equ rE cp rP, equ.kind = (A crs).1 ∧ blsEquDe (A crs).1 .Yes .Yes (A crs).2.1 = .ok (blsEquRep equ, rE) ∧
          (CProof.codec blsFr (blsG1.blsCodec blsFq) (blsG2.blsCodec blsFq2)).de .Yes .Yes (A crs).2.2 = .ok (blsMessage cp, rP) ∧ equ.Proved e crs cp) ∧
      GeneratedCrs e crs then 1 else 0) fun crs hc => by simp only [hc, and_true]]
  refine (sampled_fooled (blsPrime he) C120_clears.1 C120_clears.2 hn _ ?_).trans_lt
    ((C119_adaptive_soundness (blsPrime he) C120_clears.1 C120_clears.2 hn).2.2.2.2.1.trans (bls_order_bound.trans_le ?_))
  · rintro crs ⟨⟨h1, h2⟩, hc⟩ hs
    exact h2 (C121_bls_sound he sch crs hc ((soundCrs_iff (blsPrime he) hc).mp hs) _ .Yes rC _ _ (.inl rfl) verify hv h1)
  · have : (0 : ℝ) ≤ 1 / 2 ^ 253 := by positivity
    linarith

/-- C121, BLS12-381: in uncompressed form a CRS may have its first generator off the curve. It is read with validation, does not pass `check`, is not over the groups
and is not read in compressed form. -/
theorem C121_bls_off_curve (s : ZMod p381) (hs : s ≠ 0) (h6 : s ^ 6 ≠ 1) (crs : CRS (blsG1.torsion r381) (blsG2.torsion r381) (Gt (ZMod p381))) (hf : crs.Fits)
    (h0 : crs.g1_gen ≠ 0) (rest : Bytes) : ∃ x : CRS (Affine (ZMod p381)) (Affine (Fq2 (ZMod p381))) (Fq12 (ZMod p381)),
      x = { blsCrsRep crs with g1_gen := ⟨s ^ 2 * (blsCrsRep crs).g1_gen.x, s ^ 3 * (blsCrsRep crs).g1_gen.y, false⟩ } ∧
      blsCrsCodec.de .No .Yes (blsCrsCodec.ser .No x ++ rest) = .ok (x, rest) ∧ ¬ blsCrsCodec.Valid x ∧ (∀ crs', x ≠ blsCrsRep crs') ∧
      ∀ v bs rest', blsCrsCodec.de .Yes v bs ≠ .ok (x, rest') := by
  have hg : ∃ x y, blsG1.rep r381 crs.g1_gen = ⟨x, y, false⟩ := by
    rcases hp : crs.g1_gen with ⟨_ | ⟨x, y, h⟩, hk⟩
    · exact absurd hp h0
    · exact ⟨x, y, rfl⟩
  obtain ⟨x, y, hxy⟩ := hg
  have hgx : (blsCrsRep crs).g1_gen = ⟨x, y, false⟩ := hxy
  obtain ⟨P, hP, hoff, -, hval, -⟩ := (C120_off_curve s hs h6 rest).1 x y ⟨_, hxy⟩
  have hsub : blsG1.inSubgroup P = true := by
    rw [hP, (C120_scaled s hs).1]
    exact ((SWCurve.inSubgroup_rep blsG1_tests _).mpr ⟨_, hxy⟩).2
  have r1 : ∀ q, blsG1.proper (blsG1.rep r381 q) = true ∧ blsG1.inSubgroup (blsG1.rep r381 q) = true := fun q =>
    have h := (SWCurve.inSubgroup_rep blsG1_tests _).mpr ⟨q, rfl⟩
    ⟨(SWCurve.proper_iff _).mpr h.1, h.2⟩
  have r2 : ∀ q, blsG2.proper (blsG2.rep r381 q) = true ∧ blsG2.inSubgroup (blsG2.rep r381 q) = true := fun q =>
    have h := (SWCurve.inSubgroup_rep blsG2_tests _).mpr ⟨q, rfl⟩
    ⟨(SWCurve.proper_iff _).mpr h.1, h.2⟩
  obtain ⟨e0, e1, -, e2, e3⟩ := CRS.elems_rep (j1 := blsG1.rep r381) (j2 := blsG2.rep r381) (jT := gtRep (K := ZMod p381))
    (p1 := fun P => blsG1.proper P = true ∧ blsG1.inSubgroup P = true) (p2 := fun P => blsG2.proper P = true ∧ blsG2.inSubgroup P = true) r1 r2 C121_gt.1.valid crs
  rw [hgx, ← hP]
  obtain ⟨k1, k2, k3⟩ := C114_offcurve_crs blsG1_lawful blsFq_lawful blsG2_lawful blsFq2_lawful blsGt_lawful { blsCrsRep crs with g1_gen := P }
    (by simpa [CRS.Fits, CRS.rep, Fits64] using hf) ⟨e0, e1, e2.1, e2.2, e3⟩ (by rw [hP]) hoff hsub rest
  refine ⟨_, rfl, k1, k2, fun crs' h => ?_, k3⟩
  have := congrArg CRS.g1_gen h
  have h1 := (SWCurve.inSubgroup_rep blsG1_tests P).mpr ⟨crs'.g1_gen, this.symm⟩
  rcases h1.1 with h1 | h1
  · rw [hP] at h1; simp [Affine.identity] at h1
  · rw [hoff] at h1; simp at h1

end bls

namespace Ex

noncomputable abbrev BT := Gt (ZMod p381)

theorem cardBT : Nat.card BT = r381 := by
  obtain ⟨-, h, h1, h2, -⟩ := C121_target
  rw [← h]
  refine Nat.card_congr (Equiv.ofBijective (fun x => ⟨gtRep x, (h2 _).mpr ⟨x, rfl⟩⟩) ⟨fun x y hxy => h1 (Subtype.ext_iff.mp hxy), fun ⟨f, hf⟩ => ?_⟩)
  obtain ⟨x, rfl⟩ := (h2 f).mp hf
  exact ⟨x, rfl⟩

/-- Logarithms, and a pairing made of them. -/
noncomputable def logBT : BT ≃+ ZMod r381 := addEquivOfPrimeCardEq cardBT (Nat.card_zmod r381)

theorem pairT : ∃ e : BH1 →ₗ[ZMod r381] BH2 →ₗ[ZMod r381] BT, ∀ x y, e x y = logBT.symm (logB1 x * logB2 y) := by
  obtain ⟨e, h, -⟩ := C118_prime C120_tests.2.2.2.2.1 C120_tests.2.2.2.2.2 (fun x y => logBT.symm (logB1 x * logB2 y))
    (fun x x' y => by rw [map_add, add_mul, map_add]) (fun x y y' => by rw [map_add, mul_add, map_add]) (logB1.symm 1) (logB2.symm 1) (by simp)
  exact ⟨e, h⟩

noncomputable def eT := pairT.choose

theorem eT_apply (x : BH1) (y : BH2) : eT x y = logBT.symm (logB1 x * logB2 y) := pairT.choose_spec x y

theorem eT_ne : eT ≠ 0 := by
  intro h
  have := eT_apply (logB1.symm 1) (logB2.symm 1)
  rw [h, AddEquiv.apply_symm_apply, AddEquiv.apply_symm_apply, mul_one] at this
  exact one_ne_zero ((AddEquiv.map_eq_zero_iff _).mp this.symm)

noncomputable def crsT : CRS BH1 BH2 BT := (generateCrs eT (1 : Nat)).1

theorem crsT_generated : GeneratedCrs eT crsT := ⟨Nat, _, 1, rfl⟩

theorem crsT_nonzero : crsT.NonzeroGens := by
  constructor
  · show logB1.symm 1 ≠ 0
    simp
  · show logB2.symm 1 ≠ 0
    simp

/-- A verifier that computes with logarithms. -/
noncomputable def verifyT (crs : CRS (Affine (ZMod p381)) (Affine (Fq2 (ZMod p381))) (Fq12 (ZMod p381)))
    (equ : OneEqu (ZMod r381) (Affine (ZMod p381)) (Affine (Fq2 (ZMod p381))) (Fq12 (ZMod p381)))
    (msg : CProof (ZMod r381) (Affine (ZMod p381)) (Affine (Fq2 (ZMod p381)))) : Res Bool :=
  open Classical in
  if h : ∃ a : CRS BH1 BH2 BT × OneEqu (ZMod r381) BH1 BH2 BT × CProof (ZMod r381) BH1 BH2, blsCrsRep a.1 = crs ∧ blsEquRep a.2.1 = equ ∧ blsMessage a.2.2 = msg then
    h.choose.2.1.verify eT seqSched h.choose.1 h.choose.2.2
  else .ok false

theorem verifyT_on (crs : CRS BH1 BH2 BT) (equ : OneEqu (ZMod r381) BH1 BH2 BT) (cp : CProof (ZMod r381) BH1 BH2) :
    verifyT (blsCrsRep crs) (blsEquRep equ) (blsMessage cp) = equ.verify eT seqSched crs cp := by
  have h : ∃ a : CRS BH1 BH2 BT × OneEqu (ZMod r381) BH1 BH2 BT × CProof (ZMod r381) BH1 BH2, blsCrsRep a.1 = blsCrsRep crs ∧ blsEquRep a.2.1 = blsEquRep equ ∧
    blsMessage a.2.2 = blsMessage cp := ⟨⟨crs, equ, cp⟩, rfl, rfl, rfl⟩
  obtain ⟨h1, h2, h3⟩ := h.choose_spec
  rw [verifyT, dif_pos h, CRS.rep_injective repB1 repB2 C121_gt.1.injective h1, OneEqu.rep_injective repB1 repB2 C121_gt.1.injective h2, CProof.on_inj repB1 repB2 h3]

/-- `e(x, y) = gT²`, at `(g1, 2 g2)`. -/
noncomputable def ppeT : PPE (ZMod r381) BH1 BH2 BT := ⟨[0], [0], [[1]], logBT.symm 2⟩

theorem ppeT_holds : ppeT.Holds eT [logB1.symm 1] [logB2.symm 2] := by
  simp [PPE.Holds, equLhs, ppeT, eT_apply]

/-- The verifier accepts the bytes of an honest proof of it, in both forms, and what it accepted is proved. -/
example (sch : Nat → Scheduler) (m : Compress) : ∃ bsC bsE bsP,
    receiveAll blsFr (blsG1.blsCodec blsFq) (blsG2.blsCodec blsFq2) blsGt .PairingProduct m .Yes bsC bsE bsP verifyT = .ok (.ok true) ∧
    ∃ equ rE cp rP, equ.kind = .PairingProduct ∧ blsEquDe .PairingProduct m .Yes bsE = .ok (blsEquRep equ, rE) ∧
      (CProof.codec blsFr (blsG1.blsCodec blsFq) (blsG2.blsCodec blsFq2)).de m .Yes bsP = .ok (blsMessage cp, rP) ∧ equ.Proved eT crsT cp := by
  obtain ⟨cp, rng', h, hr⟩ := (C121_bls_honest sch seqSched crsT crsT_generated (5 : Nat) m .Yes [1] [2] [3] verifyT verifyT_on).1 ppeT [logB1.symm 1] [logB2.symm 2]
    (by simp) (by simp) (by simp [Fits64]) (by simp [Fits64]) ⟨rfl, rfl, rfl, by simp [ppeT]⟩ ppeT_holds
  exact ⟨_, _, _, hr, C121_bls_sound eT_ne seqSched crsT crsT_generated crsT_nonzero _ m _ _ _ (.inr (.inl rfl)) verifyT verifyT_on hr⟩

example (k : EquType) (bsC bsE bsP : Bytes) := C121_bls_any eT_ne seqSched k .Yes bsC bsE bsP (.inl rfl) verifyT verifyT_on

example (equ : OneEqu (ZMod r381) BH1 BH2 BT) := C121_binding (blsPrime eT_ne) crsT crsT_generated crsT_nonzero equ

example (A : CRS BH1 BH2 BT → EquType × Bytes × Bytes) := C121_bls_adaptive_soundness eT_ne (n := 100) (by decide) [] verifyT seqSched verifyT_on A

example (rest : Bytes) := C121_bls_off_curve 2 (p381_two (fq_zero card_fq)) (by
    intro h
    apply natCast_ne_zero_of_gcd (K := ZMod p381) (n := 63) (fq_zero card_fq) (by decide +kernel)
    push_cast
    linear_combination h) crsT crsT_generated.fits crsT_nonzero.1 rest

end Ex

end GS
