import Verif.Spec.ScalarWords

/-!
# C129: the whole library on words

In C128 the scalars are residues. Here they are arrays of words too: equations, values, randomness, proofs and messages hold scalars in Montgomery form, points are multiplied by going through the bits of their words, and
nothing is left that is not a word of 64 bits. Since words are a field, with the programs of C126 as its operations, everything that was proved for all fields holds for them.
-/

set_option linter.unusedSectionVars false

namespace GS
open Tower

/-- C129: scalars in words are a field, and its operations are the programs on words, which do not panic. -/
theorem C129_field (a b : FrW) :
    (a + b).1 = Words.add Words.frWords a.1 b.1 ∧ (a - b).1 = Words.sub Words.frWords a.1 b.1 ∧ (-a).1 = Words.neg Words.frWords a.1 ∧
    Words.mul Words.frWords a.1 b.1 = some (a * b).1 ∧ Words.square Words.frWords a.1 = some (a * a).1 ∧
    Words.inverse Words.frWords a.1 = some (if a = 0 then none else some (a⁻¹).1) ∧
    a.toZ + b.toZ = (a + b).toZ ∧ a.toZ * b.toZ = (a * b).toZ ∧ ∀ x : ZMod r381, ∃! c : FrW, c.toZ = x := by
  have hm : ∀ a b : FrW, Words.mul Words.frWords a.1 b.1 = some (a * b).1 := fun a b => by
    show _ = some ((Words.mul Words.frWords a.1 b.1).get _)
    rw [Option.some_get]
  refine ⟨rfl, rfl, rfl, hm a b, ?_, ?_, (FrW.models.add a b).symm, (FrW.models.mul a b).symm, fun x => ⟨FrW.ofZ x, FrW.toZ_ofZ x, fun c h => ?_⟩⟩
  · rw [C126_square C126_bls.1 a.2, hm]
  · obtain ⟨h0, h1⟩ := C126_inverse C126_bls.1 a.2
    by_cases h : a = 0
    · rw [if_pos h]
      exact h0 (by rw [h]; exact FrW.models.zero)
    · rw [if_neg h]
      have hz : a.toZ ≠ 0 := fun e => h (FrW.models.bij.1 (e.trans FrW.models.zero.symm))
      obtain ⟨c, e, hc, e'⟩ := h1 hz
      have : (⟨c, hc⟩ : FrW) = a⁻¹ := FrW.models.bij.1 (e'.trans (FrW.toZ_inv a).symm)
      rw [e, ← this]
  · rw [← h, FrW.ofZ_toZ]

theorem bigint_val (a : FrW) : Words.val a.bigint = a.toZ.val := (C126_numbers C126_bls.1 a.2 a.2).1.2

theorem bigint_words (a : FrW) : Words.IsWords 4 a.bigint := by
  have h := (C126_numbers C126_bls.1 a.2 a.2).1.1
  rw [FrW.bigint, h]
  exact Words.isWords_ofNat _ _

/-- C129: the bits of the words, from the highest that is set, are those of the number. -/
theorem C129_bits (a : List Nat) (ha : ∀ x ∈ a, x < 2 ^ 64) :
    withoutLeadingZeros a = (Words.val a).bits.reverse ∧
    ∀ {R : Type} [Ops R] [DecidableEq R] (P : Projective R), mulWordsW P a = mulNatW P (Words.val a) := by
  have h : Words.IsWords a.length a := ⟨rfl, by rw [Words.B64]; exact ha⟩
  refine ⟨withoutLeadingZeros_eq h, fun P => ?_⟩
  rw [mulWordsW, withoutLeadingZeros_eq h]; rfl

theorem mul_words1 (P : Projective FqW) (a : FrW) : MulProjective.mul P a = MulProjective.mul P a.toZ := by
  show glvMulW _ P (Words.val a.bigint) = glvMulW _ P a.toZ.val
  rw [bigint_val]

theorem mul_words2 (P : Projective (Fp2 FqW)) (a : FrW) : MulProjective.mul P a = MulProjective.mul P a.toZ := by
  show mulWordsW P a.bigint = mulNatW P a.toZ.val
  rw [(C129_bits a.bigint (by have := (bigint_words a).2; rw [Words.B64] at this; exact this)).2, bigint_val]

/-- C129: adding, negating and multiplying points, with coordinates and scalars in words, gives the words of the results. -/
theorem C129_carries : Carries FrW word1 ∧ Carries FrW word2 := by
  obtain ⟨k1, k2⟩ := C128_bls_carries
  refine ⟨⟨k1.zero, k1.add, fun a x => (k1.smul a.toZ x).trans ?_⟩, ⟨k2.zero, k2.add, fun a x => (k2.smul a.toZ x).trans ?_⟩⟩
  · exact congrArg intoAffineW (mul_words1 _ a).symm
  · exact congrArg intoAffineW (mul_words2 _ a).symm

theorem wordPair_repW : PairsRep wordPair (fun x y => blsEW x y) word1 word2 wordT := wordPair_rep

/-- The verifier on words, scalars included. -/
abbrev wordsVerify (sch : Scheduler) (crs : CRS (Affine FqW) (Affine (Fp2 FqW)) (OutputW FqW)) (equ : OneEqu FrW (Affine FqW) (Affine (Fp2 FqW)) (OutputW FqW))
    (cp : CProof FrW (Affine FqW) (Affine (Fp2 FqW))) : ArkRes Bool := OneEqu.verifyArk wordArk sch crs cp equ

/-- C129: the verifier does not panic in the pairing, and returns what it returns on the elements of the groups. -/
theorem C129_verify (sch : Scheduler) (crs : CRS (blsG1.torsion r381) (blsG2.torsion r381) (Gt (ZMod p381)))
    (equ : OneEqu FrW (blsG1.torsion r381) (blsG2.torsion r381) (Gt (ZMod p381))) (cp : CProof FrW (blsG1.torsion r381) (blsG2.torsion r381)) :
    wordsVerify sch (crs.rep word1 word2 wordT) (equ.rep word1 word2 wordT) (cp.on word1 word2) = ofRes (equ.verify blsEW sch crs cp) := by
  rw [← C122_verify wordPair_repW C128_target C129_carries.1 C129_carries.2]
  exact Ark.verify_returns (jT := wordT) wordArk_returns C129_carries.1 C129_carries.2 sch crs cp equ

/-- C129: the groups are of prime order, with the scalars in words, and the pairing of no two elements other than zero is zero. -/
theorem C129_prime : PrimeGroups blsEW := by
  obtain ⟨h1, h2, h3⟩ := C123_bls_prime
  refine ⟨fun g hg x => ?_, fun g hg x => ?_, h3⟩
  · obtain ⟨k, hk⟩ := h1 g hg x
    exact ⟨FrW.ofZ k, hk.trans (congrArg (· • g) (FrW.toZ_ofZ k).symm)⟩
  · obtain ⟨k, hk⟩ := h2 g hg x
    exact ⟨FrW.ofZ k, hk.trans (congrArg (· • g) (FrW.toZ_ofZ k).symm)⟩

section
variable {ρ : Type} [Rng ρ FrW (blsG1.torsion r381) (blsG2.torsion r381)] [Rng ρ FrW (Affine FqW) (Affine (Fp2 FqW))]

/-- C129: the prover: its messages are the words of those over the groups, it draws as much, and it panics in the same cases. -/
theorem C129_prove (hr : SameScalars ρ FrW (blsG1.torsion r381) (blsG2.torsion r381) (Affine FqW) (Affine (Fp2 FqW))) (sch : Nat → Scheduler)
    (crs : CRS (blsG1.torsion r381) (blsG2.torsion r381) (Gt (ZMod p381))) (rng : ρ) :
    (∀ (equ : PPE FrW (blsG1.torsion r381) (blsG2.torsion r381) (Gt (ZMod p381))) x y,
      (equ.rep word1 word2 wordT).commitAndProveRaw sch (x.map word1) (y.map word2) (crs.rep word1 word2 wordT) rng =
        (equ.commitAndProve sch x y crs rng).map (Prod.map (CProof.on word1 word2) id)) ∧
    (∀ (equ : MSMEG1 FrW (blsG1.torsion r381)) x y, (equ.on word1).commitAndProveRaw sch (x.map word1) y (crs.rep word1 word2 wordT) rng =
      (equ.commitAndProve sch x y crs rng).map (Prod.map (CProof.on word1 word2) id)) ∧
    (∀ (equ : MSMEG2 FrW (blsG2.torsion r381)) x y, (equ.on word2).commitAndProveRaw sch x (y.map word2) (crs.rep word1 word2 wordT) rng =
      (equ.commitAndProve sch x y crs rng).map (Prod.map (CProof.on word1 word2) id)) ∧
    (∀ (equ : QuadEqu FrW) x y, equ.commitAndProveRaw sch x y (crs.rep word1 word2 wordT) rng =
      (equ.commitAndProve sch x y crs rng).map (Prod.map (CProof.on word1 word2) id)) :=
  C122_commit_and_prove C129_carries.1 C129_carries.2 hr sch crs rng

end

/-- C129: completeness for statements, with nothing but words. The prover does not panic, and the verifier returns true for every equation. -/
theorem C129_honest {ρ : Type} [Rng ρ FrW (Affine FqW) (Affine (Fp2 FqW))] (sch : Nat → Nat → Scheduler) (sch' : Scheduler)
    (crs : CRS (blsG1.torsion r381) (blsG2.torsion r381) (Gt (ZMod p381))) (hc : GeneratedCrs blsEW crs)
    (qs : List (AnyEqu FrW (blsG1.torsion r381) (blsG2.torsion r381) (Gt (ZMod p381)))) (w : Vars FrW (blsG1.torsion r381) (blsG2.torsion r381))
    (hf : ∀ q ∈ qs, q.Fits w) (h : ∀ q ∈ qs, q.Holds blsEW w) (rng : ρ) :
    ∃ r rng', proveStatementRaw sch (qs.map (AnyEqu.rep word1 word2 wordT)) (w.rep word1 word2) (crs.rep word1 word2 wordT) rng = .ok (r, rng') ∧
      verifyStatement (fun q cp => wordsVerify sch' (crs.rep word1 word2 wordT) q.one cp) (sentMessages r).1 (sentMessages r).2
        (qs.map (AnyEqu.rep word1 word2 wordT)) (sentMessages r).1.equ_proofs = .ok true := by
  let : Rng ρ FrW (blsG1.torsion r381) (blsG2.torsion r381) :=
    ⟨Rng.randF (Affine FqW) (Affine (Fp2 FqW)), fun s => (0, s), fun s => (0, s)⟩
  have hp := C125_program (jT := wordT) C129_carries.1 C129_carries.2
    (fun _ => rfl : SameScalars ρ FrW (blsG1.torsion r381) (blsG2.torsion r381) (Affine FqW) (Affine (Fp2 FqW))) sch qs w crs rng
  have hl : crs.u.length = 2 ∧ crs.v.length = 2 := by obtain ⟨_, _, rng, rfl⟩ := hc; exact ⟨rfl, rfl⟩
  obtain ⟨c, pfs, rng', k, kv⟩ := C60_statement (e := blsEW) hl.1 hl.2 sch qs w hf h rng
  rw [k] at hp
  refine ⟨_, _, hp, ?_⟩
  rw [verifyStatement_true, sentMessages_rep]
  show List.Forall₂ _ (List.map _ qs) (List.map _ (List.map _ pfs))
  rw [List.map_map, List.forall₂_map_left_iff, List.forall₂_map_right_iff]
  refine kv.imp fun q pf hk => ?_
  have hm : q.message ((sentMessages (c, pfs)).1.on word1 word2) ((sentMessages (c, pfs)).2.on word1 word2) (pf.bare.on word1 word2) =
      (q.message (sentMessages (c, pfs)).1 (sentMessages (c, pfs)).2 pf.bare).on word1 word2 := by cases q <;> rfl
  show wordsVerify sch' _ (q.rep word1 word2 wordT).one ((q.rep word1 word2 wordT).message _ _ (pf.bare.on word1 word2)) = _
  rw [message_rep, hm, one_rep, C129_verify, verify_sent q sch' c pfs pf crs (hk sch')]
  rfl

theorem assemble_words (p1 : blsG1.torsion r381) (p2 : blsG2.torsion r381) (a1 a2 t1 t2 : FrW) :
    assembleCrs blsEW prepareRealBindingKey p1 p2 a1 a2 t1 t2 = assembleCrs blsE prepareRealBindingKey p1 p2 a1.toZ a2.toZ t1.toZ t2.toZ := rfl

/-- C129: a CRS made of scalars in words is one made of residues, and conversely. -/
theorem C129_same_crs (crs : CRS (blsG1.torsion r381) (blsG2.torsion r381) (Gt (ZMod p381))) : GeneratedCrs blsEW crs ↔ GeneratedCrs blsE crs := by
  constructor
  · rintro ⟨ρ, i, rng, rfl⟩
    exact ⟨ρ, ⟨fun s => ((Rng.randF (blsG1.torsion r381) (blsG2.torsion r381) s : FrW × ρ).1.toZ, (Rng.randF (blsG1.torsion r381) (blsG2.torsion r381) s : FrW × ρ).2),
      Rng.randG1 FrW (blsG2.torsion r381), Rng.randG2 FrW (blsG1.torsion r381)⟩, rng, rfl⟩
  · rintro ⟨ρ, i, rng, rfl⟩
    refine ⟨ρ, ⟨fun s => (FrW.ofZ (Rng.randF (blsG1.torsion r381) (blsG2.torsion r381) s : ZMod r381 × ρ).1, (Rng.randF (blsG1.torsion r381) (blsG2.torsion r381) s : ZMod r381 × ρ).2),
      Rng.randG1 (ZMod r381) (blsG2.torsion r381), Rng.randG2 (ZMod r381) (blsG1.torsion r381)⟩, rng, ?_⟩
    simp only [generateCrs]
    rw [assemble_words]
    simp only [FrW.toZ_ofZ]

/-- C129: `generate_crs`, with generators and scalars in words. It does not panic, and gives the words of the CRS. -/
theorem C129_generate {ρ : Type} [Rng ρ FrW (Projective FqW) (Projective (Fp2 FqW))] [Rng ρ FrW (blsG1.torsion r381) (blsG2.torsion r381)]
    (hF : SameScalars ρ FrW (blsG1.torsion r381) (blsG2.torsion r381) (Projective FqW) (Projective (Fp2 FqW)))
    (hG1 : ∀ s : ρ, ∃ (P : Projective FqW) (p : blsG1.torsion r381) (s' : ρ), Rng.randG1 FrW (Projective (Fp2 FqW)) s = (P, s') ∧
      Rng.randG1 FrW (blsG2.torsion r381) s = (p, s') ∧ (valJ ofFq P).Of (incl1 leFq p))
    (hG2 : ∀ s : ρ, ∃ (P : Projective (Fp2 FqW)) (p : blsG2.torsion r381) (s' : ρ), Rng.randG2 FrW (Projective FqW) s = (P, s') ∧
      Rng.randG2 FrW (blsG1.torsion r381) s = (p, s') ∧ (valJ (val2 ofFq) P).Of (incl2 leFq p)) (rng : ρ) :
    generateW (F := FrW) wordArk.one rng = some ((generateCrs blsEW rng).1.rep word1 word2 wordT, (generateCrs blsEW rng).2) := by
  let i : Rng ρ (ZMod r381) (Projective FqW) (Projective (Fp2 FqW)) :=
    ⟨fun s => ((Rng.randF (Projective FqW) (Projective (Fp2 FqW)) s : FrW × ρ).1.toZ, (Rng.randF (Projective FqW) (Projective (Fp2 FqW)) s : FrW × ρ).2),
      Rng.randG1 FrW (Projective (Fp2 FqW)), Rng.randG2 FrW (Projective FqW)⟩
  let j : Rng ρ (ZMod r381) (blsG1.torsion r381) (blsG2.torsion r381) :=
    ⟨fun s => ((Rng.randF (blsG1.torsion r381) (blsG2.torsion r381) s : FrW × ρ).1.toZ, (Rng.randF (blsG1.torsion r381) (blsG2.torsion r381) s : FrW × ρ).2),
      Rng.randG1 FrW (blsG2.torsion r381), Rng.randG2 FrW (blsG1.torsion r381)⟩
  have hs : SameScalars ρ (ZMod r381) (blsG1.torsion r381) (blsG2.torsion r381) (Projective FqW) (Projective (Fp2 FqW)) := fun s =>
    congrArg (fun x : FrW × ρ => (x.1.toZ, x.2)) (hF s)
  have key := C128_bls_generate hs hG1 hG2 rng
  refine Eq.trans ?_ key
  unfold generateW
  simp only [mul_words1, mul_words2]
  rfl

theorem elem_residue {m : Nat} {p d : List Nat} (hv : Words.val p = m) {n : Nat} (h : Words.elem p d = n) : Words.residue m p d = n := by
  subst hv
  exact h

/-- C129: the bytes of a scalar are its words, and reading gives the words of the residue that C120 reads, or the same error. -/
theorem C129_codec (m : Compress) (v : Validate) (a : FrW) (bs : Bytes) :
    FrW.codec.ser m a = blsFr.ser m a.toZ ∧ FrW.codec.de m v bs = (blsFr.de m v bs).map (Prod.map FrW.ofZ id) := by
  refine ⟨((C126_bytes C126_bls.1 a.2 33 m v).1).symm, ?_⟩
  show (do let (b, rest) ← readExact 32 bs; _) = Except.map _ (do let (b, rest) ← readExact 32 bs; _)
  by_cases hl : bs.length < 32
  · simp only [readExact, if_pos hl]; rfl
  simp only [readExact, if_neg hl]
  obtain ⟨h, hv⟩ := C126_bls.1
  have hb : (bs.take 32).length = 8 * Words.frWords.length := by
    rw [List.length_take, show Words.frWords.length = 4 from rfl]; omega
  obtain ⟨f1, f2⟩ := Words.fromBytes_spec hb
  obtain ⟨g1, g2⟩ := Words.fromBigint_elem h f1
  rw [f2] at g1 g2
  by_cases hlt : leNat (bs.take 32) < r381
  · obtain ⟨d, d1, d2, d3⟩ := g1 (by rw [hv]; exact hlt)
    have e : (⟨d, d2⟩ : FrW) = FrW.ofZ (leNat (bs.take 32)) := by
      exact FrW.models.bij.1 ((elem_residue hv d3).trans (FrW.toZ_ofZ _).symm)
    have d1' : Words.fromBigint Words.frWords (Words.fromBytes 4 (bs.take 32)) = some (some d) := d1
    have d2' : d.length = 4 ∧ (∀ x ∈ d, x < 2 ^ 64) ∧ Words.val d < Words.val Words.frWords := d2
    simp only [bind, Except.bind, d1', if_pos hlt]
    rw [dif_pos d2']
    exact congrArg (fun a => Except.ok (a, bs.drop 32)) e
  · have g2' : Words.fromBigint Words.frWords (Words.fromBytes 4 (bs.take 32)) = some none := g2 (by rw [hv]; exact not_lt.1 hlt)
    simp only [bind, Except.bind, g2', if_neg hlt]
    rfl

theorem codec_ok {m : Compress} {v : Validate} {bs rest : Bytes} {a : FrW} : FrW.codec.de m v bs = .ok (a, rest) ↔ blsFr.de m v bs = .ok (a.toZ, rest) := by
  rw [(C129_codec m v a bs).2]
  cases h : blsFr.de m v bs with
  | error e => simp [Except.map]
  | ok x =>
    obtain ⟨x, r⟩ := x
    simp only [Except.map, Prod.map, id, Except.ok.injEq, Prod.mk.injEq]
    exact and_congr_left fun _ => ⟨fun e => by rw [← e, FrW.toZ_ofZ], fun e => by rw [e, FrW.ofZ_toZ]⟩

theorem codec_valid (a : FrW) : FrW.codec.Valid a := rfl

theorem codec_lawful : FrW.codec.Lawful where
  round m v x rest _ := by rw [(C129_codec m v x []).1, codec_ok]; exact blsFr_lawful.round m v _ rest fun _ => rfl
  size m x := by rw [(C129_codec m .Yes x []).1]; exact blsFr_lawful.size m _
  stream m v bs x rest h := by
    obtain ⟨used, h1, h2⟩ := blsFr_lawful.stream m v bs _ rest (codec_ok.1 h)
    exact ⟨used, h1, fun r => codec_ok.2 (h2 r)⟩
  validate m bs x rest := by
    rw [codec_ok, codec_ok, blsFr_lawful.validate]
    exact and_congr_right fun _ => ⟨fun _ => rfl, fun _ => rfl⟩
  batch l := by
    rw [show FrW.codec.batchCheck l = blsFr.batchCheck (l.map FrW.toZ) from ?_, blsFr_lawful.batch]
    · exact ⟨fun _ _ _ => rfl, fun _ _ _ => rfl⟩
    · show loopCheck _ l = loopCheck _ (l.map FrW.toZ)
      induction l with
      | nil => rfl
      | cons a l ih => exact ih

/-- The verifier on words, scalars included, of what was read. -/
noncomputable abbrev readVerifyW (sch : Scheduler) (crs : CRS (Affine (ZMod p381)) (Affine (Fq2 (ZMod p381))) (Fq12 (ZMod p381)))
    (equ : OneEqu FrW (Affine (ZMod p381)) (Affine (Fq2 (ZMod p381))) (Fq12 (ZMod p381)))
    (cp : CProof FrW (Affine (ZMod p381)) (Affine (Fq2 (ZMod p381)))) : ArkRes Bool :=
  wordsVerify sch (crs.rep toW1 toW2 toFqTwelve) (equ.rep toW1 toW2 toFqTwelve) (cp.on toW1 toW2)

/-- An equation whose points are represented. -/
noncomputable abbrev equRepW : OneEqu FrW (blsG1.torsion r381) (blsG2.torsion r381) (Gt (ZMod p381)) →
    OneEqu FrW (Affine (ZMod p381)) (Affine (Fq2 (ZMod p381))) (Fq12 (ZMod p381)) := OneEqu.rep (blsG1.rep r381) (blsG2.rep r381) gtRep

/-- A message whose points are represented. -/
noncomputable abbrev messageRepW : CProof FrW (blsG1.torsion r381) (blsG2.torsion r381) → CProof FrW (Affine (ZMod p381)) (Affine (Fq2 (ZMod p381))) :=
  CProof.on (blsG1.rep r381) (blsG2.rep r381)

theorem equ_wordsW (equ : OneEqu FrW (blsG1.torsion r381) (blsG2.torsion r381) (Gt (ZMod p381))) : (equRepW equ).rep toW1 toW2 toFqTwelve = equ.rep word1 word2 wordT := by
  cases equ with
  | ppe q => simp only [equRepW, OneEqu.rep, PPE.rep, List.map_map]; rfl
  | msmeg1 q => simp only [equRepW, OneEqu.rep, MSMEG1.on, List.map_map]; rfl
  | msmeg2 q => simp only [equRepW, OneEqu.rep, MSMEG2.on, List.map_map]; rfl
  | quad q => rfl

theorem message_wordsW (cp : CProof FrW (blsG1.torsion r381) (blsG2.torsion r381)) : (messageRepW cp).on toW1 toW2 = cp.on word1 word2 := by
  simp only [messageRepW, CProof.on, Commit.on, List.map_map]
  congr 1
  refine List.map_congr_left fun pf _ => ?_
  simp only [Function.comp, EquProof.on, List.map_map]
  rfl

theorem read_okW {sch : Scheduler} {k : EquType} {m : Compress} {v : Validate} {bsC bsE bsP : Bytes} {b : Bool} :
    receiveAll FrW.codec (blsG1.blsCodec blsFq) (blsG2.blsCodec blsFq2) blsGt k m v bsC bsE bsP (fun crs equ cp => asRes (readVerifyW sch crs equ cp)) = .ok (.ok b) ↔
    receiveAll FrW.codec (blsG1.blsCodec blsFq) (blsG2.blsCodec blsFq2) blsGt k m v bsC bsE bsP (readVerifyW sch) = .ok (.ok b) := by
  rw [receiveAll_ok, receiveAll_ok]
  simp only [asRes_iff]

theorem readW_eq (sch : Scheduler) (crs equ cp) : asRes (readVerifyW sch (blsCrsRep crs) (equRepW equ) (messageRepW cp)) = equ.verify blsEW sch crs cp := by
  rw [readVerifyW, rep_words, equ_wordsW, message_wordsW, C129_verify, asRes_of]

/-- C129: soundness, from the bytes to the words of points and scalars. -/
theorem C129_sound (sch : Scheduler) (crs : CRS (blsG1.torsion r381) (blsG2.torsion r381) (Gt (ZMod p381))) (hc : GeneratedCrs blsEW crs)
    (h0 : crs.NonzeroGens) (k : EquType) (m : Compress) (rC bsE bsP : Bytes)
    (hm : m = .Yes ∨ k = .PairingProduct ∨ k = .Quadratic ∨ ∀ x rest, OneEqu.de FrW.codec (blsG1.blsCodec blsFq) (blsG2.blsCodec blsFq2) blsGt k m .Yes bsE = .ok (x, rest) →
      x.Valid FrW.codec (blsG1.blsCodec blsFq) (blsG2.blsCodec blsFq2) blsGt)
    (h : receiveAll FrW.codec (blsG1.blsCodec blsFq) (blsG2.blsCodec blsFq2) blsGt k m .Yes (blsCrsCodec.ser m (blsCrsRep crs) ++ rC) bsE bsP (readVerifyW sch) = .ok (.ok true)) :
    ∃ equ rE cp rP, equ.kind = k ∧ OneEqu.de FrW.codec (blsG1.blsCodec blsFq) (blsG2.blsCodec blsFq2) blsGt k m .Yes bsE = .ok (equRepW equ, rE) ∧
      (CProof.codec FrW.codec (blsG1.blsCodec blsFq) (blsG2.blsCodec blsFq2)).de m .Yes bsP = .ok (messageRepW cp, rP) ∧ equ.Proved blsEW crs cp := by
  have hE : ∀ x rest, OneEqu.de FrW.codec (blsG1.blsCodec blsFq) (blsG2.blsCodec blsFq2) blsGt k m .Yes bsE = .ok (x, rest) →
      x.Valid FrW.codec (blsG1.blsCodec blsFq) (blsG2.blsCodec blsFq2) blsGt := by
    have hk := equ_compressed blsG1_lawful blsFq_lawful blsG2_lawful blsFq2_lawful codec_lawful.orderly C121_gt.1.orderly k m
    rcases hm with hm | hm | hm | hm
    · exact fun x rest => hk (.inl hm) bsE rest x
    · exact fun x rest => hk (.inr (.inl hm)) bsE rest x
    · exact fun x rest => hk (.inr (.inr hm)) bsE rest x
    · exact hm
  have hC := CRS.round_rep bls1_represents bls2_represents C121_gt.1 m .Yes crs hc.fits rC
  have hC' := (strictly_crs blsG1_lawful blsFq_lawful blsG2_lawful blsFq2_lawful C121_gt.1.orderly _ _ _ _ _).mp hC
  have hst := (receiveAll_strict blsG1_lawful blsFq_lawful blsG2_lawful blsFq2_lawful codec_lawful.orderly C121_gt.1.orderly).mpr ⟨read_okW.mpr h, fun _ => ⟨fun x rest hx => by
    obtain ⟨rfl, rfl⟩ := Prod.mk.inj (Except.ok.inj (hx.symm.trans hC'.1))
    exact hC'.2 rfl, hE⟩⟩
  obtain ⟨equ, rE, cp, rP, k1, k2, k3, k4⟩ := C121_sound C129_prime codec_lawful codec_valid bls1_represents bls2_represents C121_gt.1 sch crs hc h0 k m rC bsE bsP
    (fun crs equ cp => asRes (readVerifyW sch crs equ cp)) (readW_eq sch) hst
  exact ⟨equ, rE, cp, rP, k1, ((strictly_equ blsG1_lawful blsFq_lawful blsG2_lawful blsFq2_lawful codec_lawful.orderly C121_gt.1.orderly _ _ _ _ _ _).mp k2).1,
    by rw [message_strict]; exact k3, k4⟩

/-- C129: completeness, from the words of the prover to the bytes and to the words of the verifier, for the four kinds of equations. -/
theorem C129_received {ρ : Type} [Rng ρ FrW (Affine FqW) (Affine (Fp2 FqW))] (sch : Nat → Scheduler) (sch' : Scheduler)
    (crs : CRS (blsG1.torsion r381) (blsG2.torsion r381) (Gt (ZMod p381))) (hc : GeneratedCrs blsEW crs) (rng : ρ) (m : Compress) (v : Validate) (rC rE rP : Bytes) :
    let accepts := fun (equ : OneEqu FrW (blsG1.torsion r381) (blsG2.torsion r381) (Gt (ZMod p381))) (msg : CProof FrW (Affine FqW) (Affine (Fp2 FqW))) =>
      receiveAll FrW.codec (blsG1.blsCodec blsFq) (blsG2.blsCodec blsFq2) blsGt equ.kind m v (blsCrsCodec.ser m (blsCrsRep crs) ++ rC)
        ((equRepW equ).ser FrW.codec (blsG1.blsCodec blsFq) (blsG2.blsCodec blsFq2) blsGt m ++ rE)
        ((CProof.codec FrW.codec (blsG1.blsCodec blsFq) (blsG2.blsCodec blsFq2)).ser m (msg.on (valA ofFq) (valA (val2 ofFq))) ++ rP) (readVerifyW sch') = .ok (.ok true)
    (∀ (equ : PPE FrW (blsG1.torsion r381) (blsG2.torsion r381) (Gt (ZMod p381))) x y, x ≠ [] → y ≠ [] → Fits64 x → Fits64 y → equ.Dims x.length y.length → equ.Holds blsEW x y →
      ∃ msg rng', (equ.rep word1 word2 wordT).commitAndProveRaw sch (x.map word1) (y.map word2) (crs.rep word1 word2 wordT) rng = .ok (msg, rng') ∧ accepts (.ppe equ) msg) ∧
    (∀ (equ : MSMEG1 FrW (blsG1.torsion r381)) x y, x ≠ [] → y ≠ [] → Fits64 x → Fits64 y → equ.Dims x.length y.length → equ.Holds x y →
      ∃ msg rng', (equ.on word1).commitAndProveRaw sch (x.map word1) y (crs.rep word1 word2 wordT) rng = .ok (msg, rng') ∧ accepts (.msmeg1 equ) msg) ∧
    (∀ (equ : MSMEG2 FrW (blsG2.torsion r381)) x y, x ≠ [] → y ≠ [] → Fits64 x → Fits64 y → equ.Dims x.length y.length → equ.Holds x y →
      ∃ msg rng', (equ.on word2).commitAndProveRaw sch x (y.map word2) (crs.rep word1 word2 wordT) rng = .ok (msg, rng') ∧ accepts (.msmeg2 equ) msg) ∧
    (∀ (equ : QuadEqu FrW) x y, x ≠ [] → y ≠ [] → Fits64 x → Fits64 y → equ.Dims x.length y.length → equ.Holds x y →
      ∃ msg rng', equ.commitAndProveRaw sch x y (crs.rep word1 word2 wordT) rng = .ok (msg, rng') ∧ accepts (.quad equ) msg) := by
  let : Rng ρ FrW (blsG1.torsion r381) (blsG2.torsion r381) := ⟨Rng.randF (Affine FqW) (Affine (Fp2 FqW)), fun s => (0, s), fun s => (0, s)⟩
  obtain ⟨p1, p2, p3, p4⟩ := C129_prove (fun _ => rfl : SameScalars ρ FrW (blsG1.torsion r381) (blsG2.torsion r381) (Affine FqW) (Affine (Fp2 FqW))) sch crs rng
  obtain ⟨k1, k2, k3, k4⟩ := C121_honest (j1 := blsG1.rep r381) (j2 := blsG2.rep r381) (jT := gtRep) codec_lawful codec_valid bls1_represents bls2_represents C121_gt.1
    sch sch' crs hc rng m v rC rE rP (fun crs equ cp => asRes (readVerifyW sch' crs equ cp)) (readW_eq sch')
  intro accepts
  have key : ∀ equ cp, receiveAll FrW.codec (blsG1.blsCodec blsFq).strict (blsG2.blsCodec blsFq2).strict blsGt equ.kind m v
      ((CRS.codec (blsG1.blsCodec blsFq).strict (blsG2.blsCodec blsFq2).strict blsGt).ser m (blsCrsRep crs) ++ rC)
      ((equRepW equ).ser FrW.codec (blsG1.blsCodec blsFq).strict (blsG2.blsCodec blsFq2).strict blsGt m ++ rE)
      ((CProof.codec FrW.codec (blsG1.blsCodec blsFq).strict (blsG2.blsCodec blsFq2).strict).ser m (messageRepW cp) ++ rP)
      (fun crs equ cp => asRes (readVerifyW sch' crs equ cp)) = .ok (.ok true) → accepts equ (cp.on word1 word2) := by
    intro equ cp h
    have e : (cp.on word1 word2).on (valA ofFq) (valA (val2 ofFq)) = messageRepW cp := by
      rw [← message_wordsW, CProof.on_on of_toW1 of_toW2]
    have := ((receiveAll_strict blsG1_lawful blsFq_lawful blsG2_lawful blsFq2_lawful codec_lawful.orderly C121_gt.1.orderly).mp h).1
    show receiveAll _ _ _ _ _ _ _ _ _ _ _ = _
    rw [e]
    refine read_okW.mp ?_
    cases equ <;> exact this
  refine ⟨fun equ x y hx hy fx fy hd hs => ?_, fun equ x y hx hy fx fy hd hs => ?_, fun equ x y hx hy fx fy hd hs => ?_, fun equ x y hx hy fx fy hd hs => ?_⟩
  · obtain ⟨cp, rng', h, hw⟩ := k1 equ x y hx hy fx fy hd hs
    exact ⟨cp.on word1 word2, rng', by rw [p1, h]; rfl, key _ _ hw⟩
  · obtain ⟨cp, rng', h, hw⟩ := k2 equ x y hx hy fx fy hd hs
    exact ⟨cp.on word1 word2, rng', by rw [p2, h]; rfl, key _ _ hw⟩
  · obtain ⟨cp, rng', h, hw⟩ := k3 equ x y hx hy fx fy hd hs
    exact ⟨cp.on word1 word2, rng', by rw [p3, h]; rfl, key _ _ hw⟩
  · obtain ⟨cp, rng', h, hw⟩ := k4 equ x y hx hy fx fy hd hs
    exact ⟨cp.on word1 word2, rng', by rw [p4, h]; rfl, key _ _ hw⟩

namespace Ex

/-- Words of 2 and 3. -/
example : FrW.ofZ 2 * FrW.ofZ 3 = FrW.ofZ 6 ∧ Words.mul Words.frWords (FrW.ofZ 2).1 (FrW.ofZ 3).1 = some (FrW.ofZ 6).1 := by
  have h : FrW.ofZ 2 * FrW.ofZ 3 = FrW.ofZ 6 := FrW.models.bij.1 (by
    rw [FrW.models.mul, FrW.toZ_ofZ, FrW.toZ_ofZ, FrW.toZ_ofZ]; norm_num)
  exact ⟨h, by rw [(C129_field _ _).2.2.2.1, h]⟩

/-- The words of the number `2 ^ 64 + 5`, with a word of zeros on top. -/
example : withoutLeadingZeros [5, 1, 0] = true :: (List.replicate 61 false ++ [true, false, true]) := by decide +kernel
example := C129_bits [5, 1, 0] (by decide)

/-- Bytes of a scalar, and bytes of a number that is too large. -/
example (m : Compress) (v : Validate) : FrW.codec.de m v (FrW.codec.ser m (FrW.ofZ 7) ++ [1]) = .ok (FrW.ofZ 7, [1]) := codec_lawful.round m v _ _ fun _ => rfl
example (m : Compress) (v : Validate) : FrW.codec.de m v (List.replicate 32 255) = .error .invalidData := by
  rw [(C129_codec m v 0 _).2]
  have : blsFr.de m v (List.replicate 32 255) = .error .invalidData := by
    cases m <;> cases v <;> decide +kernel
  rw [this]; rfl

theorem crsE_words : GeneratedCrs blsEW crsE := (C129_same_crs crsE).2 crsE_generated

/-- The statement of C125, with its scalars in words. -/
noncomputable def stmtW : List (AnyEqu FrW BH1 BH2 BT) :=
  [.ppe ⟨[0], [0], [[1]], blsE (logB1.symm 1) (logB2.symm 2)⟩, .msmeg1 ⟨[0], [0], [[1]], logB1.symm 3⟩, .msmeg2 ⟨[0], [0], [[1]], logB2.symm 4⟩, .quad ⟨[0], [0], [[1]], FrW.ofZ 6⟩]

/-- A solution. -/
noncomputable def varsW : Vars FrW BH1 BH2 := ⟨[logB1.symm 1], [FrW.ofZ 2], [logB2.symm 2], [FrW.ofZ 3]⟩

theorem stmtW_fits : ∀ q ∈ stmtW, q.Fits varsW := by
  intro q hq
  simp only [stmtW, List.mem_cons, List.not_mem_nil, or_false] at hq
  rcases hq with rfl | rfl | rfl | rfl <;> exact ⟨by simp [varsW], by simp [varsW], rfl, rfl, rfl, by simp [varsW]⟩

theorem stmtW_holds : ∀ q ∈ stmtW, q.Holds blsEW varsW := by
  have k1 : ∀ (a : ZMod r381) (x : BH1), FrW.ofZ a • x = a • x := fun a x => congrArg (· • x) (FrW.toZ_ofZ a)
  have k2 : ∀ (a : ZMod r381) (x : BH2), FrW.ofZ a • x = a • x := fun a x => congrArg (· • x) (FrW.toZ_ofZ a)
  have k3 : FrW.ofZ 2 * FrW.ofZ 3 = FrW.ofZ 6 := FrW.models.bij.1 (by
    rw [FrW.models.mul, FrW.toZ_ofZ, FrW.toZ_ofZ, FrW.toZ_ofZ]; norm_num)
  intro q hq
  simp only [stmtW, List.mem_cons, List.not_mem_nil, or_false] at hq
  rcases hq with rfl | rfl | rfl | rfl
  · simp [AnyEqu.Holds, PPE.Holds, equLhs, varsW]; rfl
  · simp [AnyEqu.Holds, MSMEG1.Holds, equLhs, varsW, k1, logB1_smul]
  · simp [AnyEqu.Holds, MSMEG2.Holds, equLhs, varsW, k2, logB2_smul]; norm_num
  · simp [AnyEqu.Holds, QuadEqu.Holds, equLhs, varsW, k3]

noncomputable instance : Rng Nat FrW (Affine FqW) (Affine (Fp2 FqW)) := ⟨fun s => (FrW.ofZ (Rng.randF BH1 BH2 s : ZMod r381 × Nat).1, (Rng.randF BH1 BH2 s : ZMod r381 × Nat).2), fun s => (0, s), fun s => (0, s)⟩

/-- A statement with an equation of each kind, proved and verified with nothing but words. -/
example (sch : Nat → Nat → Scheduler) (sch' : Scheduler) := C129_honest sch sch' crsE crsE_words stmtW varsW stmtW_fits stmtW_holds (5 : Nat)

/-- Random values, with scalars in words. -/
noncomputable instance : Rng Nat FrW BH1 BH2 :=
  ⟨fun s => (FrW.ofZ (Rng.randF BH1 BH2 s : ZMod r381 × Nat).1, (Rng.randF BH1 BH2 s : ZMod r381 × Nat).2), Rng.randG1 (ZMod r381) BH2, Rng.randG2 (ZMod r381) BH1⟩
noncomputable instance : Rng Nat FrW (Projective FqW) (Projective (Fp2 FqW)) where
  randF s := Rng.randF BH1 BH2 s
  randG1 s := (intoGroupW (word1 (Rng.randG1 FrW BH2 s).1), (Rng.randG1 FrW BH2 s : BH1 × Nat).2)
  randG2 s := (intoGroupW (word2 (Rng.randG2 FrW BH1 s).1), (Rng.randG2 FrW BH1 s : BH2 × Nat).2)

example : ∃ crs rng, generateW (F := FrW) wordArk.one (1 : Nat) = some (crs.rep word1 word2 wordT, rng) ∧ GeneratedCrs blsEW crs :=
  ⟨_, _, C129_generate (fun _ => rfl)
    (fun s => ⟨intoGroupW (word1 (Rng.randG1 FrW BH2 s).1), (Rng.randG1 FrW BH2 s).1, (Rng.randG1 FrW BH2 s : BH1 × Nat).2, rfl, rfl, word1_of _⟩)
    (fun s => ⟨intoGroupW (word2 (Rng.randG2 FrW BH1 s).1), (Rng.randG2 FrW BH1 s).1, (Rng.randG2 FrW BH1 s : BH2 × Nat).2, rfl, rfl, word2_of _⟩) 1, ⟨Nat, _, 1, rfl⟩⟩

/-- A proof of `x * y = 6` at `x = 2`, `y = 3`, made in words, sent and accepted in words. -/
example (sch : Nat → Scheduler) (m : Compress) :
    ∃ bsC bsE bsP, receiveAll FrW.codec (blsG1.blsCodec blsFq) (blsG2.blsCodec blsFq2) blsGt .Quadratic m .Yes bsC bsE bsP (readVerifyW seqSched) = .ok (.ok true) ∧
    ∃ equ rE cp rP, equ.kind = .Quadratic ∧ OneEqu.de FrW.codec (blsG1.blsCodec blsFq) (blsG2.blsCodec blsFq2) blsGt .Quadratic m .Yes bsE = .ok (equRepW equ, rE) ∧
      (CProof.codec FrW.codec (blsG1.blsCodec blsFq) (blsG2.blsCodec blsFq2)).de m .Yes bsP = .ok (messageRepW cp, rP) ∧ equ.Proved blsEW crsE cp := by
  obtain ⟨msg, rng', h, hr⟩ := (C129_received sch seqSched crsE crsE_words (5 : Nat) m .Yes [1] [2] [3]).2.2.2 ⟨[0], [0], [[1]], FrW.ofZ 6⟩ [FrW.ofZ 2] [FrW.ofZ 3]
    (by simp) (by simp) (by simp [Fits64]) (by simp [Fits64]) ⟨rfl, rfl, rfl, by simp⟩ (stmtW_holds (.quad _) (by simp [stmtW]))
  exact ⟨_, _, _, hr, C129_sound seqSched crsE crsE_words crsE_nonzero _ m _ _ _ (.inr (.inr (.inl rfl))) hr⟩

end Ex

end GS
