import Verif.Spec.WordPoints

/-!
# C130: reading, writing and drawing with nothing but words

C129 computes with words, but what it computes with was read as residues and then put into words. Here bytes are made into words and words into bytes: square roots, the order of the coordinates, the tests for the subgroups and the powers of
`Valid::check` are those of `Verif/Model/WordPoints.lean`, `Verif/Model/TowerPoint.lean` and `Verif/Model/Words.lean`.
-/

namespace GS
open Tower

section fields
variable {R S : Type} [Ops R] [DecidableEq R] [Field S] [DecidableEq S] {φ : R → S}

/-- C130: powers, whatever words the exponent has. -/
theorem C130_pow (h : Models φ) (a : R) (e : List Nat) (he : ∀ x ∈ e, x < 2 ^ 64) : φ (powW a e) = φ a ^ Words.val e := pow_models h a ⟨rfl, he⟩

/-- C130: the square root of a number is found if there is one. -/
theorem C130_sqrt [Fintype S] (hc : Fintype.card S = p381) (h : Models φ) (a : R) :
    (∀ r, sqrtW a = some r → φ r * φ r = φ a) ∧ (sqrtW a = none → ∀ x : S, x * x ≠ φ a) ∧ (isQrW a = true ↔ φ a ≠ 0 ∧ ∃ x : S, x * x = φ a) := by
  have e := sqrt_models h a
  refine ⟨fun r hr => ?_, fun hn x hx => ?_, ?_⟩
  · rw [hr] at e
    exact sqrtFq_some e.symm
  · rw [hn, ← hx] at e
    obtain ⟨s, hs⟩ := sqrtFq_sq hc x
    rw [hs] at e
    exact absurd e (by simp)
  · rw [isQr_models h]
    constructor
    · intro hq
      have hq' : φ a ^ ((p381 - 1) / 2) = 1 := of_decide_eq_true hq
      refine ⟨fun h0 => ?_, ?_⟩
      · rw [h0, zero_pow (by decide +kernel)] at hq'
        exact zero_ne_one hq'
      · refine ⟨φ a ^ ((p381 + 1) / 4), ?_⟩
        rw [← pow_add, show (p381 + 1) / 4 + (p381 + 1) / 4 = (p381 - 1) / 2 + 1 by decide +kernel, pow_succ, hq', one_mul]
    · rintro ⟨h0, x, hx⟩
      rw [← hx]
      exact isQr_sq hc (by rintro rfl; exact h0 (by rw [← hx, mul_zero]))

/-- C130: the square root of a pair never panics, and is found if there is one. -/
theorem C130_sqrt2 [Fintype S] [Fact (∀ r : S, r ^ 2 ≠ -1 + 0 * r)] (hc : Fintype.card S = p381) (h : Models φ) {twoInv : R} (ht : φ twoInv = 2⁻¹) (a : Fp2 R) :
    ∃ r, sqrt2W twoInv a = some r ∧ (∀ b, r = some b → val2 φ b * val2 φ b = val2 φ a) ∧ (r = none → ∀ x : Fq2 S, x * x ≠ val2 φ a) := by
  obtain ⟨r, hr, e⟩ := sqrt2_models hc h (models2 h) ht a
  refine ⟨r, hr, fun b hb => ?_, fun hn x hx => ?_⟩
  · rw [hb] at e
    exact sqrtFq2_root hc e.symm
  · rw [hn, ← hx] at e
    obtain ⟨s, hs⟩ := sqrtFq2_sq hc x
    rw [hs] at e
    exact absurd e (by simp)

end fields

section bls

theorem toFq_ofFq (a : FqW) : toFq (ofFq a) = a := modelsFq.bij.1 (ofFq_toFq _)
theorem toPair_of (a : Fp2 FqW) : toFqPair (val2 ofFq a) = a := modelsFq2.bij.1 (of_toFqPair _)

theorem half_eq : ofFq halfW = 2⁻¹ := by
  have h2 : (2 : ZMod p381) ≠ 0 := p381_two (fq_zero card_fq)
  refine (wordOf_residue C126_bls.2 _).trans ?_
  refine eq_inv_of_mul_eq_one_left ?_
  have : (((p381 + 1) / 2 : ℕ) : ZMod p381) * 2 = (((p381 + 1) / 2 * 2 : ℕ) : ZMod p381) := by push_cast; rfl
  rw [this, show (p381 + 1) / 2 * 2 = p381 + 1 by decide +kernel]
  simp

theorem bigint_fq (a : FqW) : Words.IsWords 6 a.bigint ∧ Words.val a.bigint = (ofFq a).val := by
  have h := (C126_numbers C126_bls.2 a.2 a.2).1
  have e : a.bigint = Words.ofNat 6 (ofFq a).val := h.1
  exact ⟨by rw [e]; exact Words.isWords_ofNat _ _, h.2⟩

theorem le_fq (a b : FqW) : leFqW a b = leFq (ofFq a) (ofFq b) := by
  have h := (C126_numbers C126_bls.2 a.2 b.2).2.2
  rw [leFqW, leFq]
  have h' : Words.cmp a.bigint b.bigint = compare (ofFq a).val (ofFq b).val := h
  rw [h']
  by_cases hl : (ofFq a).val ≤ (ofFq b).val
  · rw [decide_eq_true hl]
    simp only [bne_iff_ne, ne_eq, Nat.compare_eq_gt, not_lt]; exact hl
  · rw [decide_eq_false hl]
    simp only [bne_eq_false_iff_eq, Nat.compare_eq_gt]; omega

theorem le_fq2 (a b : Fp2 FqW) : leFq2W a b = leFq2 leFq (val2 ofFq a) (val2 ofFq b) := by
  simp only [leFq2W, leFq2, le_fq, eq_iff modelsFq]
  rfl

theorem fqOfWords_eq {r : List Nat} (hr : Words.IsWords 6 r) : (fqOfWords r).map ofFq = if Words.val r < p381 then some (Words.val r : ZMod p381) else none := by
  obtain ⟨h, hv⟩ := C126_bls.2
  obtain ⟨g1, g2⟩ := Words.fromBigint_elem h (r := r) hr
  by_cases hlt : Words.val r < p381
  · obtain ⟨d, d1, d2, d3⟩ := g1 (by rw [hv]; exact hlt)
    have d2' : d.length = 6 ∧ (∀ x ∈ d, x < 2 ^ 64) ∧ Words.val d < Words.val Words.fqWords := d2
    rw [if_pos hlt]
    simp only [fqOfWords, d1]
    rw [dif_pos d2']
    exact congrArg some (elem_residue hv d3)
  · have g2' := g2 (by rw [hv]; exact not_lt.1 hlt)
    rw [if_neg hlt]
    simp only [fqOfWords, g2']
    rfl

theorem be_enc (x : FqW) : beFqW.enc x = blsFq.enc (ofFq x) := ((C126_bytes C126_bls.2 x.2 48 .Yes .Yes).2.1).symm

theorem be_dec (b : Bytes) (hb : b.length = 48) : (beFqW.dec b).map ofFq = blsFq.dec b := by
  obtain ⟨f1, f2⟩ := Words.fromBytes_spec (n := 6) (bs := b.reverse) (by rw [List.length_reverse, hb])
  show (fqOfWords _).map ofFq = if leNat b.reverse < p381 then some (leNat b.reverse : ZMod p381) else none
  rw [fqOfWords_eq f1, f2]

theorem curve1 : CurveFor ofFq toFq blsG1 g1W blsFq beFqW where
  models := modelsFq
  inv := ofFq_toFq
  a := rfl
  b := by simp only [g1W, blsG1, g1Curve]; exact ofFq_toFq 4
  sqrt x := by
    simp only [g1W, blsG1, g1Curve]
    exact sqrt_models modelsFq x
  le x y := by
    simp only [g1W, blsG1, g1Curve]
    exact le_fq x y
  test P := by
    simp only [g1W, blsG1, g1Curve]
    exact (C128_tests card_fq modelsFq (beta := toFq beta1) (ofFq_toFq beta1) (of_toFqPair (toFq2 coeff0)) (of_toFqPair (toFq2 coeff1)) P ⟨toFqPair 0, toFqPair 0, true⟩).1
  size := rfl
  enc := be_enc
  dec := be_dec

theorem curve2 : CurveFor (val2 ofFq) toFqPair blsG2 g2W blsFq2 beFq2W where
  models := modelsFq2
  inv := of_toFqPair
  a := rfl
  b := by
    simp only [g2W, blsG2, g2Curve, val2, ofFq_toFq]
  sqrt x := by
    obtain ⟨r, hr, e⟩ := sqrt2_models card_fq modelsFq modelsFq2 half_eq x
    show ((sqrt2W halfW x).getD none).map _ = _
    rw [hr]
    exact e
  le x y := by
    simp only [g2W, blsG2, g2Curve]
    exact le_fq2 x y
  test P := by
    simp only [g2W, blsG2, g2Curve]
    exact (C128_tests card_fq modelsFq (beta := toFq beta1) (ofFq_toFq beta1) (of_toFqPair (toFq2 coeff0)) (of_toFqPair (toFq2 coeff1)) ⟨toFq 0, toFq 0, true⟩ P).2
  size := rfl
  enc x := by
    show beFqW.enc x.c1 ++ beFqW.enc x.c0 = blsFq.enc (ofFq x.c1) ++ blsFq.enc (ofFq x.c0)
    rw [be_enc, be_enc]
  dec b hb := by
    have hb' : b.length = 2 * 48 := hb
    show (do let c1 ← beFqW.dec (b.take 48); let c0 ← beFqW.dec (b.drop 48); some (⟨c0, c1⟩ : Fp2 FqW)).map (val2 ofFq) =
      (do let c1 ← blsFq.dec (b.take 48); let c0 ← blsFq.dec (b.drop 48); some (⟨c0, c1⟩ : Fq2 (ZMod p381)))
    rw [← be_dec (b.take 48) (by rw [List.length_take]; omega), ← be_dec (b.drop 48) (by rw [List.length_drop]; omega)]
    cases beFqW.dec (b.take 48) with
    | none => rfl
    | some x => cases beFqW.dec (b.drop 48) <;> rfl

/-- C130: points of BLS12-381 are read into words, and written from words, as they are read and written as pairs of elements of a field. The same bytes are refused, with the same errors. -/
theorem C130_points : Codec.Maps toW1 (blsG1.blsCodec blsFq) codec1W ∧ Codec.Maps toW2 (blsG2.blsCodec blsFq2) codec2W := ⟨curve1.codec, curve2.codec⟩

theorem fq_plain : Codec.Maps toFq (fpCodec p381 48 48).plain fqPlainW where
  ser m a := by
    show Words.toBytes (toFq a).bigint = leBytes 48 a.val
    obtain ⟨h1, h2⟩ := bigint_fq (toFq a)
    rw [Words.toBytes_eq h1, h2, ofFq_toFq]
  size _ _ := rfl
  de m v bs := by
    show (do let (b, rest) ← readExact 48 bs; _) = Except.map _ (do let (b, rest) ← readExact 48 bs; _)
    by_cases hl : bs.length < 48
    · simp only [readExact, if_pos hl]; rfl
    simp only [readExact, if_neg hl, bind, Except.bind]
    obtain ⟨f1, f2⟩ := Words.fromBytes_spec (n := 6) (bs := bs.take 48) (by rw [List.length_take]; omega)
    have key := fqOfWords_eq f1
    rw [f2] at key
    by_cases hlt : leNat (bs.take 48) < p381
    · rw [if_pos hlt] at key ⊢
      cases hw : fqOfWords (Words.fromBytes 6 (bs.take 48)) with
      | none => rw [hw] at key; simp at key
      | some d =>
        rw [hw] at key
        refine congrArg (fun a => Except.ok (a, bs.drop 48)) ?_
        exact modelsFq.bij.1 ((Option.some.inj key).trans (ofFq_toFq _).symm)
    · rw [if_neg hlt] at key ⊢
      cases hw : fqOfWords (Words.fromBytes 6 (bs.take 48)) with
      | none => rfl
      | some d => rw [hw] at key; simp at key
  check _ := rfl
  batch l := loopCheck_map (fun _ => rfl) l

/-- The words of an element of `Fq6`. -/
noncomputable def toFqSix (x : Fq6 (ZMod p381)) : Fp6 FqW := ⟨toFqPair (fq6Equiv.symm x).1, toFqPair (fq6Equiv.symm x).2.1, toFqPair (fq6Equiv.symm x).2.2⟩

theorem of_toFqSix (x : Fq6 (ZMod p381)) : val6 ofFq (toFqSix x) = x := by
  rw [val6, toFqSix]
  simp only [of_toFqPair]
  exact fq6Equiv.apply_symm_apply x

theorem toFqTwelve_eq (x : Fq12 (ZMod p381)) : toFqTwelve x = (⟨toFqSix x.re, toFqSix x.im⟩ : Fp12 FqW) := by
  refine modelsFq12.bij.1 ((of_toFqTwelve x).trans ?_)
  show x = ⟨val6 ofFq (toFqSix x.re), val6 ofFq (toFqSix x.im)⟩
  rw [of_toFqSix, of_toFqSix]

theorem fq2_plain : Codec.Maps toFqPair (structCodec (fun a => (⟨a.1, a.2⟩ : Fq2 (ZMod p381))) (fun z => (z.re, z.im)) (prodCodec (fpCodec p381 48 48).plain (fpCodec p381 48 48).plain)) fq2PlainW :=
  (fq_plain.prod fq_plain).struct (fun _ => rfl) (fun _ => rfl)

/-- C130: elements of the target group are read into words, checked with powers of words, and written from words. -/
theorem C130_target : Codec.Maps toFqTwelve blsGt codecTW := by
  have h6 : Codec.Maps toFqSix (structCodec (mkFq6 (K := ZMod p381)) fq6Equiv.symm (prodCodec (structCodec (fun a => (⟨a.1, a.2⟩ : Fq2 (ZMod p381))) (fun z => (z.re, z.im))
      (prodCodec (fpCodec p381 48 48).plain (fpCodec p381 48 48).plain)) (prodCodec (structCodec (fun a => (⟨a.1, a.2⟩ : Fq2 (ZMod p381))) (fun z => (z.re, z.im))
      (prodCodec (fpCodec p381 48 48).plain (fpCodec p381 48 48).plain)) (structCodec (fun a => (⟨a.1, a.2⟩ : Fq2 (ZMod p381))) (fun z => (z.re, z.im))
      (prodCodec (fpCodec p381 48 48).plain (fpCodec p381 48 48).plain))))) fq6PlainW :=
    (fq2_plain.prod (fq2_plain.prod fq2_plain)).struct (fun a => by
      have : fq6Equiv.symm (mkFq6 a) = a := fq6Equiv.symm_apply_apply a
      rw [toFqSix, this]; rfl) (fun _ => rfl)
  have h12 : Codec.Maps (toFqTwelve : Fq12 (ZMod p381) → Fp12 FqW) blsFq12.plain fq12PlainW :=
    Codec.Maps.struct (mk := fun a => (⟨a.1, a.2⟩ : Fq12 (ZMod p381))) (fields := fun z => (z.re, z.im)) (h6.prod h6) (fun a => by rw [toFqTwelve_eq]; simp only [Prod.map_fst, Prod.map_snd]; rfl) (fun b => by rw [toFqTwelve_eq]; rfl)
  refine h12.output fun a => ?_
  classical
  have hp := pow_models modelsFq12 (toFqTwelve a) (e := Words.frWords) (n := 4) ⟨rfl, by decide⟩
  rw [of_toFqTwelve, show Words.val Words.frWords = r381 from C126_bls.1.2] at hp
  rw [inGt]
  refine decide_eq_decide.mpr ?_
  rw [eq_iff modelsFq12, hp, modelsFq12.one]

/-- C130: a verifier that holds nothing but words, from the bytes on, gives the answers and the errors of C129. -/
theorem C130_receive (sch : Scheduler) (k : EquType) (m : Compress) (v : Validate) (bsC bsE bsP : Bytes) :
    receiveAll FrW.codec codec1W codec2W codecTW k m v bsC bsE bsP (wordsVerify sch) =
      receiveAll FrW.codec (blsG1.blsCodec blsFq) (blsG2.blsCodec blsFq2) blsGt k m v bsC bsE bsP (readVerifyW sch) :=
  Codec.Maps.receiveAll C130_points.1 C130_points.2 C130_target FrW.codec k m v bsC bsE bsP (wordsVerify sch)

/-- The codec of CRSs in words. -/
abbrev crsCodecW := CRS.codec codec1W codec2W codecTW

/-- The codec of messages in words. -/
abbrev messageCodecW := CProof.codec FrW.codec codec1W codec2W

/-- Reading an equation into words. -/
abbrev equDeW := OneEqu.de FrW.codec codec1W codec2W codecTW

/-- C130: a CRS, an equation and a message in words are written in the bytes of C129. -/
theorem C130_ser (m : Compress) (crs : CRS (blsG1.torsion r381) (blsG2.torsion r381) (Gt (ZMod p381))) (equ : OneEqu FrW (blsG1.torsion r381) (blsG2.torsion r381) (Gt (ZMod p381)))
    (msg : CProof FrW (Affine FqW) (Affine (Fp2 FqW))) :
    crsCodecW.ser m (crs.rep word1 word2 wordT) = blsCrsCodec.ser m (blsCrsRep crs) ∧
    (equ.rep word1 word2 wordT).ser FrW.codec codec1W codec2W codecTW m = (equRepW equ).ser FrW.codec (blsG1.blsCodec blsFq) (blsG2.blsCodec blsFq2) blsGt m ∧
    messageCodecW.ser m msg = (CProof.codec FrW.codec (blsG1.blsCodec blsFq) (blsG2.blsCodec blsFq2)).ser m (msg.on (valA ofFq) (valA (val2 ofFq))) := by
  refine ⟨?_, ?_, ?_⟩
  · rw [← rep_words]
    exact (C130_points.1.crs C130_points.2 C130_target).ser m _
  · rw [← equ_wordsW]
    exact C130_points.1.equation_ser C130_points.2 C130_target FrW.codec m _
  · rw [← (C130_points.1.message C130_points.2 FrW.codec).ser m, CProof.on_on (f1 := toW1) (f2 := toW2)]
    · exact fun P => by rw [toW1, valA]; simp only [toFq_ofFq]
    · exact fun P => by rw [toW2, valA]; simp only [toPair_of]

/-- C130: soundness, for a verifier that holds nothing but words. In uncompressed form an equation with constants in a group is to be checked after it is read. -/
theorem C130_sound (sch : Scheduler) (crs : CRS (blsG1.torsion r381) (blsG2.torsion r381) (Gt (ZMod p381))) (hc : GeneratedCrs blsEW crs)
    (h0 : crs.NonzeroGens) (k : EquType) (m : Compress) (rC bsE bsP : Bytes)
    (hm : m = .Yes ∨ k = .PairingProduct ∨ k = .Quadratic ∨ ∀ x rest, equDeW k m .Yes bsE = .ok (x, rest) → x.Valid FrW.codec codec1W codec2W codecTW)
    (h : receiveAll FrW.codec codec1W codec2W codecTW k m .Yes (crsCodecW.ser m (crs.rep word1 word2 wordT) ++ rC) bsE bsP (wordsVerify sch) = .ok (.ok true)) :
    ∃ (equ : OneEqu FrW (blsG1.torsion r381) (blsG2.torsion r381) (Gt (ZMod p381))) (rE : Bytes) (cp : CProof FrW (blsG1.torsion r381) (blsG2.torsion r381)) (rP : Bytes),
      equ.kind = k ∧ equDeW k m .Yes bsE = .ok (equ.rep word1 word2 wordT, rE) ∧
      messageCodecW.de m .Yes bsP = .ok (cp.on word1 word2, rP) ∧ equ.Proved blsEW crs cp := by
  have hE := fun m v bs => C130_points.1.equation C130_points.2 C130_target FrW.codec k m v bs
  rw [C130_receive, (C130_ser m crs (.quad ⟨[], [], [], 0⟩) ⟨⟨[], []⟩, ⟨[], []⟩, []⟩).1] at h
  obtain ⟨equ, rE, cp, rP, h1, h2, h3, h4⟩ := C129_sound sch crs hc h0 k m rC bsE bsP (by
    refine hm.imp_right (Or.imp_right (Or.imp_right fun hv x rest hx => ?_))
    have := hv (x.rep toW1 toW2 toFqTwelve) rest ((hE _ _ _).trans (by rw [hx]; rfl))
    cases x with
    | ppe q => exact ((C130_points.1.ppe C130_points.2 C130_target FrW.codec).check q).symm.trans this
    | msmeg1 q => exact ((C130_points.1.msmeg1 FrW.codec).check q).symm.trans this
    | msmeg2 q => exact ((C130_points.2.msmeg2 FrW.codec).check q).symm.trans this
    | quad q => exact this) h
  refine ⟨equ, rE, cp, rP, h1, ?_, ?_, h4⟩
  · exact (hE _ _ _).trans (by rw [h2, ← equ_wordsW]; rfl)
  · rw [(C130_points.1.message C130_points.2 FrW.codec).de, h3, ← message_wordsW]; rfl

/-- C130: completeness, from words to bytes and back to words. -/
theorem C130_received {ρ : Type} [Rng ρ FrW (Affine FqW) (Affine (Fp2 FqW))] (sch : Nat → Scheduler) (sch' : Scheduler)
    (crs : CRS (blsG1.torsion r381) (blsG2.torsion r381) (Gt (ZMod p381))) (hc : GeneratedCrs blsEW crs) (rng : ρ) (m : Compress) (v : Validate) (rC rE rP : Bytes) :
    let accepts := fun (equ : OneEqu FrW (blsG1.torsion r381) (blsG2.torsion r381) (Gt (ZMod p381))) (msg : CProof FrW (Affine FqW) (Affine (Fp2 FqW))) =>
      receiveAll FrW.codec codec1W codec2W codecTW equ.kind m v (crsCodecW.ser m (crs.rep word1 word2 wordT) ++ rC)
        ((equ.rep word1 word2 wordT).ser FrW.codec codec1W codec2W codecTW m ++ rE) (messageCodecW.ser m msg ++ rP) (wordsVerify sch') = .ok (.ok true)
    (∀ (equ : PPE FrW (blsG1.torsion r381) (blsG2.torsion r381) (Gt (ZMod p381))) x y, x ≠ [] → y ≠ [] → Fits64 x → Fits64 y → equ.Dims x.length y.length → equ.Holds blsEW x y →
      ∃ msg rng', (equ.rep word1 word2 wordT).commitAndProveRaw sch (x.map word1) (y.map word2) (crs.rep word1 word2 wordT) rng = .ok (msg, rng') ∧ accepts (.ppe equ) msg) ∧
    (∀ (equ : MSMEG1 FrW (blsG1.torsion r381)) x y, x ≠ [] → y ≠ [] → Fits64 x → Fits64 y → equ.Dims x.length y.length → equ.Holds x y →
      ∃ msg rng', (equ.on word1).commitAndProveRaw sch (x.map word1) y (crs.rep word1 word2 wordT) rng = .ok (msg, rng') ∧ accepts (.msmeg1 equ) msg) ∧
    (∀ (equ : MSMEG2 FrW (blsG2.torsion r381)) x y, x ≠ [] → y ≠ [] → Fits64 x → Fits64 y → equ.Dims x.length y.length → equ.Holds x y →
      ∃ msg rng', (equ.on word2).commitAndProveRaw sch x (y.map word2) (crs.rep word1 word2 wordT) rng = .ok (msg, rng') ∧ accepts (.msmeg2 equ) msg) ∧
    (∀ (equ : QuadEqu FrW) x y, x ≠ [] → y ≠ [] → Fits64 x → Fits64 y → equ.Dims x.length y.length → equ.Holds x y →
      ∃ msg rng', equ.commitAndProveRaw sch x y (crs.rep word1 word2 wordT) rng = .ok (msg, rng') ∧ accepts (.quad equ) msg) := by
  intro accepts
  obtain ⟨h1, h2, h3, h4⟩ := C129_received sch sch' crs hc rng m v rC rE rP
  have key : ∀ equ msg, receiveAll FrW.codec (blsG1.blsCodec blsFq) (blsG2.blsCodec blsFq2) blsGt equ.kind m v (blsCrsCodec.ser m (blsCrsRep crs) ++ rC)
        ((equRepW equ).ser FrW.codec (blsG1.blsCodec blsFq) (blsG2.blsCodec blsFq2) blsGt m ++ rE)
        ((CProof.codec FrW.codec (blsG1.blsCodec blsFq) (blsG2.blsCodec blsFq2)).ser m (msg.on (valA ofFq) (valA (val2 ofFq))) ++ rP) (readVerifyW sch') = .ok (.ok true) →
      accepts equ msg := by
    intro equ msg h
    show receiveAll _ _ _ _ _ _ _ _ _ _ _ = _
    obtain ⟨e1, e2, e3⟩ := C130_ser m crs equ msg
    rw [C130_receive, e1, e2, e3]
    exact h
  refine ⟨fun equ x y a b c d e f => ?_, fun equ x y a b c d e f => ?_, fun equ x y a b c d e f => ?_, fun equ x y a b c d e f => ?_⟩
  · obtain ⟨msg, rng', h, h'⟩ := h1 equ x y a b c d e f
    exact ⟨msg, rng', h, key _ _ h'⟩
  · obtain ⟨msg, rng', h, h'⟩ := h2 equ x y a b c d e f
    exact ⟨msg, rng', h, key _ _ h'⟩
  · obtain ⟨msg, rng', h, h'⟩ := h3 equ x y a b c d e f
    exact ⟨msg, rng', h, key _ _ h'⟩
  · obtain ⟨msg, rng', h, h'⟩ := h4 equ x y a b c d e f
    exact ⟨msg, rng', h, key _ _ h'⟩

theorem two1 : (2 : ZMod p381) ≠ 0 := p381_two (fq_zero card_fq)
theorem two2 : (2 : Fq2 (ZMod p381)) ≠ 0 := fq2_two card_fq

theorem mul_of {R S : Type} [Ops R] [DecidableEq R] [Field S] [DecidableEq S] {φ : R → S} {b : S} (h : Models φ) (h2 : (2 : S) ≠ 0) {P : Affine R} {p : (cubic b).Point} (hP : valA φ P = coordsOf p) (k : Nat) :
    (valJ φ (mulNatAffineW P k)).Of (k • p) :=
  (C128_multiplication h h2 (P := intoGroupW P) (by rw [valJ_intoGroup h, hP]; exact Projective.intoGroup_of p) hP k).2

theorem root1 (v r : ZMod p381) (h : blsG1.sqrt v = some r) : r * r = v := by
  simp only [blsG1, g1Curve] at h
  exact sqrtFq_some h
theorem root2 (v r : Fq2 (ZMod p381)) (h : blsG2.sqrt v = some r) : r * r = v := by
  simp only [blsG2, g2Curve] at h
  exact sqrtFq2_root card_fq h

theorem clear1 {k : Nat} {clear : Affine (ZMod p381) → blsG1.torsion r381} (hcl : ∀ p, (clear (blsG1.coords p)).1 = k • p) {P : Affine FqW} (h0 : P.infinity = false)
    (h1 : blsG1.onCurve (valA ofFq P) = true) : (valJ ofFq (mulNatAffineW P k)).Of (incl1 leFq (clear (valA ofFq P))) := by
  obtain ⟨p, hp⟩ := (SWCurve.proper_coords blsG1_tests (valA ofFq P)).1 (.inr ⟨h0, h1⟩)
  have hk := hcl p
  rw [hp] at hk
  have hm := mul_of modelsFq two1 (p := p) (hp.symm.trans (g1Curve_coords leFq p)) k
  show (valJ ofFq (mulNatAffineW P k)).Of (clear (valA ofFq P)).1
  rw [hk]
  exact hm

theorem clear2 {k : Nat} {clear : Affine (Fq2 (ZMod p381)) → blsG2.torsion r381} (hcl : ∀ p, (clear (blsG2.coords p)).1 = k • p) {P : Affine (Fp2 FqW)} (h0 : P.infinity = false)
    (h1 : blsG2.onCurve (valA (val2 ofFq) P) = true) : (valJ (val2 ofFq) (mulNatAffineW P k)).Of (incl2 leFq (clear (valA (val2 ofFq) P))) := by
  obtain ⟨p, hp⟩ := (SWCurve.proper_coords blsG2_tests (valA (val2 ofFq) P)).1 (.inr ⟨h0, h1⟩)
  have hk := hcl p
  rw [hp] at hk
  have hm := mul_of modelsFq2 two2 (p := p) (hp.symm.trans (g2Curve_coords p)) k
  show (valJ (val2 ofFq) (mulNatAffineW P k)).Of (clear (valA (val2 ofFq) P)).1
  rw [hk]
  exact hm

theorem zero1 : (valJ ofFq zeroW).Of (incl1 leFq (0 : blsG1.torsion r381)) := by
  have e : incl1 leFq (0 : (g1Curve leFq).torsion r381) = 0 := map_zero _
  show (valJ ofFq zeroW).Of (incl1 leFq (0 : (g1Curve leFq).torsion r381))
  rw [e, valJ_zero modelsFq]; rfl
theorem zero2 : (valJ (val2 ofFq) zeroW).Of (incl2 leFq (0 : blsG2.torsion r381)) := by
  have e : incl2 leFq (0 : (g2Curve leFq).torsion r381) = 0 := map_zero _
  show (valJ (val2 ofFq) zeroW).Of (incl2 leFq (0 : (g2Curve leFq).torsion r381))
  rw [e, valJ_zero modelsFq2]; rfl

section draws
variable {σ : Type} (word : σ → Fin (2 ^ 64) × σ) (bit : σ → Bool × σ) (n : Nat)

/-- C130: the words drawn for a scalar or a coordinate are those of the element that is drawn in `Verif/Model/Sample.lean`, with as many words used. -/
theorem C130_draws (s : σ) : (randFrW word n s).map (Prod.map FrW.toZ id) = frConfig.rand word n s ∧ (randFqW word n s).map (Prod.map ofFq id) = fqConfig.rand word n s := by
  constructor
  · obtain ⟨h1, h2⟩ := Words.rand_residue (q := r381) (p := Words.frWords) ⟨rfl, by decide⟩ C126_bls.1.2 255 word n s
    refine Eq.trans ?_ h2
    show (randFrW word n s).map _ = (Words.rand Words.frWords 1 word n s).map _
    have h1' : ∀ x, Words.rand Words.frWords 1 word n s = some x → Words.Element Words.frWords x.1 := h1
    rw [randFrW]
    cases hw : Words.rand Words.frWords 1 word n s with
    | none => rfl
    | some x =>
      have hx : x.1.length = 4 ∧ (∀ y ∈ x.1, y < 2 ^ 64) ∧ Words.val x.1 < Words.val Words.frWords := h1' x hw
      simp only [dif_pos hx]
      rfl
  · obtain ⟨h1, h2⟩ := Words.rand_residue (q := p381) (p := Words.fqWords) ⟨rfl, by decide⟩ C126_bls.2.2 381 word n s
    refine Eq.trans ?_ h2
    show (randFqW word n s).map _ = (Words.rand Words.fqWords 3 word n s).map _
    have h1' : ∀ x, Words.rand Words.fqWords 3 word n s = some x → Words.Element Words.fqWords x.1 := h1
    rw [randFqW]
    cases hw : Words.rand Words.fqWords 3 word n s with
    | none => rfl
    | some x =>
      have hx : x.1.length = 6 ∧ (∀ y ∈ x.1, y < 2 ^ 64) ∧ Words.val x.1 < Words.val Words.fqWords := h1' x hw
      simp only [dif_pos hx]
      rfl

/-- C130: the points drawn in words are those drawn in `Verif/Model/Sample.lean`. -/
theorem C130_drawn (s : σ) :
    Option.Rel (fun x y => (valJ ofFq x.1).Of (incl1 leFq y.1) ∧ x.2 = y.2) (drawG1W word bit n s) (drawG1 word bit n s) ∧
    Option.Rel (fun x y => (valJ (val2 ofFq) x.1).Of (incl2 leFq y.1) ∧ x.2 = y.2) (drawG2W word bit n s) (drawG2 word bit n s) := by
  constructor
  · refine curve1.rand (fun x y => (valJ ofFq x).Of (incl1 leFq y)) (fun s => (C130_draws word n s).2) bit (fun P h0 h1 => ?_) root1 n s
    exact clear1 (clear := blsG1.byCofactor r381 cofactor1) C120_clears.1.clears h0 h1
  · refine curve2.rand (fun x y => (valJ (val2 ofFq) x).Of (incl2 leFq y)) (fun s => ?_) bit (fun P h0 h1 => ?_) root2 n s
    · have h := fun s => (C130_draws word n s).2
      simp only [quadRand, ← h]
      cases randFqW word n s with
      | none => rfl
      | some x =>
        simp only [Option.map_some, bind, Option.bind_some, Prod.map, id]
        cases randFqW word n x.2 <;> rfl
    · exact clear2 (clear := blsG2.byCofactor r381 cofactor2) C120_clears.2.clears h0 h1

/-- C130: `generate_crs`, from the words of the random number generator to the words of the CRS, is that of C119, with the pairing of BLS12-381. -/
theorem C130_generate (s : σ) :
    letI := wordRng word bit n
    letI := groupRng word bit n
    generateW (F := FrW) wordArk.one s = some ((generateCrs blsEW s).1.rep word1 word2 wordT, (generateCrs blsEW s).2) := by
  refine @C129_generate σ (wordRng word bit n) (groupRng word bit n) (fun s => ?_) (fun s => ?_) (fun s => ?_) s
  · show (randFrW word n s).getD (0, s) = ((show Option (ZMod r381 × σ) from frConfig.rand word n s).map (Prod.map FrW.ofZ id)).getD (0, s)
    have h : (show Option (ZMod r381 × σ) from frConfig.rand word n s) = (randFrW word n s).map (Prod.map FrW.toZ id) := (C130_draws word n s).1.symm
    rw [h]
    cases randFrW word n s with
    | none => rfl
    | some x => simp [Prod.map, FrW.ofZ_toZ]
  · show ∃ P p s', (drawG1W word bit n s).getD (zeroW, s) = (P, s') ∧ (drawG1 word bit n s).getD (0, s) = (p, s') ∧ _
    have h := (C130_drawn word bit n s).1
    generalize drawG1W word bit n s = x at h ⊢
    generalize drawG1 word bit n s = y at h ⊢
    cases h with
    | none => exact ⟨zeroW, 0, s, rfl, rfl, zero1⟩
    | some h => exact ⟨_, _, _, rfl, Prod.ext rfl h.2.symm, h.1⟩
  · show ∃ P p s', (drawG2W word bit n s).getD (zeroW, s) = (P, s') ∧ (drawG2 word bit n s).getD (0, s) = (p, s') ∧ _
    have h := (C130_drawn word bit n s).2
    generalize drawG2W word bit n s = x at h ⊢
    generalize drawG2 word bit n s = y at h ⊢
    cases h with
    | none => exact ⟨zeroW, 0, s, rfl, rfl, zero2⟩
    | some h => exact ⟨_, _, _, rfl, Prod.ext rfl h.2.symm, h.1⟩

/-- C130: so what is made in words is a CRS of `generate_crs`, and C130_sound and C130_received are about it. -/
theorem C130_generated (s : σ) :
    letI := wordRng word bit n
    ∃ crs s', generateW (F := FrW) wordArk.one s = some (crs.rep word1 word2 wordT, s') ∧ GeneratedCrs blsEW crs :=
  ⟨_, _, C130_generate word bit n s, σ, groupRng word bit n, s, rfl⟩

end draws

end bls

namespace Ex

/-- `3 ^ (2 ^ 64 + 2)`, with a word of zeros on top. -/
example : ofFq (powW (toFq 3) [2, 1, 0]) = 3 ^ (2 ^ 64 + 2) := by
  rw [C130_pow modelsFq _ _ (by decide), ofFq_toFq, show Words.val [2, 1, 0] = 2 ^ 64 + 2 by decide]

/-- Nine has a root, and minus one has none. -/
example : ∃ r, sqrtW (toFq 9) = some r ∧ ofFq r * ofFq r = 9 := by
  obtain ⟨h1, h2, -⟩ := C130_sqrt card_fq modelsFq (toFq 9)
  rw [ofFq_toFq] at h1 h2
  cases h : sqrtW (toFq 9) with
  | none => exact absurd (by norm_num) (h2 h 3)
  | some r => exact ⟨r, rfl, h1 r h⟩
example : sqrtW (toFq (-1)) = none := by
  obtain ⟨h1, -, -⟩ := C130_sqrt card_fq modelsFq (toFq (-1))
  rw [ofFq_toFq] at h1
  cases h : sqrtW (toFq (-1)) with
  | none => rfl
  | some r =>
    have hf := (inferInstance : Fact (∀ r : ZMod p381, r ^ 2 ≠ -1 + 0 * r)).out (ofFq r)
    exact absurd (by rw [pow_two, h1 r h, zero_mul, add_zero]) hf

/-- Minus one has a root among the pairs. -/
example : ∃ b, sqrt2W halfW (toFqPair ⟨-1, 0⟩) = some (some b) ∧ val2 ofFq b * val2 ofFq b = ⟨-1, 0⟩ := by
  obtain ⟨r, hr, h1, h2⟩ := C130_sqrt2 card_fq modelsFq half_eq (toFqPair ⟨-1, 0⟩)
  rw [of_toFqPair] at h1 h2
  cases r with
  | none => exact absurd (by ext <;> simp) (h2 rfl ⟨0, 1⟩)
  | some b => exact ⟨b, hr, h1 b rfl⟩

/-- The point at infinity is read, in one byte and zeros; without the flag it is refused. -/
example : codec1W.de .Yes .No (0xc0 :: List.replicate 47 0 ++ [1]) = .ok (toW1 Affine.identity, [1]) := by
  rw [C130_points.1.de]
  have : (blsG1.blsCodec blsFq).de .Yes .No (0xc0 :: List.replicate 47 0 ++ [1]) = .ok (Affine.identity, [1]) := rfl
  rw [this]; rfl
example : codec1W.de .Yes .Yes (List.replicate 48 0) = .error .unexpectedFlags := rfl

/-- Every point of the groups is read again from what is written for it. -/
example (m : Compress) (x : BH1) : codec1W.de m .No (codec1W.ser m (word1 x) ++ [1]) = .ok (word1 x, [1]) := by
  have h : (blsG1.blsCodec blsFq).strict.de m .No ((blsG1.blsCodec blsFq).ser m (blsG1.rep r381 x) ++ [1]) = .ok (blsG1.rep r381 x, [1]) := bls1_represents.returns m x [1]
  replace h := (strict_de.mp h).1
  rw [word1, C130_points.1.ser, C130_points.1.de, h]
  rfl

/-- Words that are all one are a scalar and a coordinate, and words of ones are not. -/
example : (randFrW (fun s : Nat => (1, s + 1)) 1 0).isSome = true ∧ (randFqW (fun s : Nat => (1, s + 1)) 1 0).isSome = true := by
  constructor <;> decide +kernel
example : (randFrW (fun s : Nat => (2 ^ 64 - 1, s + 1)) 3 0).isSome = false := by decide +kernel

example := C130_generated (fun s : Nat => (1, s + 1)) (fun s => (true, s + 1)) 100 0

/-- A proof of `x * y = 6` at `x = 2`, `y = 3`, made, sent and accepted in words. -/
example (sch : Nat → Scheduler) (m : Compress) :
    ∃ bsC bsE bsP, receiveAll FrW.codec codec1W codec2W codecTW .Quadratic m .Yes bsC bsE bsP (wordsVerify seqSched) = .ok (.ok true) ∧
    ∃ (equ : OneEqu FrW BH1 BH2 (Gt (ZMod p381))) (rE : Bytes) (cp : CProof FrW BH1 BH2) (rP : Bytes), equ.kind = .Quadratic ∧ equDeW .Quadratic m .Yes bsE = .ok (equ.rep word1 word2 wordT, rE) ∧
      messageCodecW.de m .Yes bsP = .ok (cp.on word1 word2, rP) ∧ equ.Proved blsEW crsE cp := by
  obtain ⟨msg, rng', h, hr⟩ := (C130_received sch seqSched crsE crsE_words (5 : Nat) m .Yes [1] [2] [3]).2.2.2 ⟨[0], [0], [[1]], FrW.ofZ 6⟩ [FrW.ofZ 2] [FrW.ofZ 3]
    (by simp) (by simp) (by simp [Fits64]) (by simp [Fits64]) ⟨rfl, rfl, rfl, by simp⟩ (stmtW_holds (.quad _) (by simp [stmtW]))
  exact ⟨_, _, _, hr, C130_sound seqSched crsE crsE_words crsE_nonzero _ m _ _ _ (.inr (.inr (.inl rfl))) hr⟩

end Ex

end GS
