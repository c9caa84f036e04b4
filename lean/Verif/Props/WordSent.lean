import Verif.Props.WordPoints

/-!
# C131: statements of several equations, with nothing but words

C125 is about statements on points in coordinates, and C129 and C130 about words. Here a statement is proved in words, sent, received in words and verified, and whoever sees the bytes learns as little as in C125.
-/

set_option linter.unusedSectionVars false
set_option exponentiation.threshold 400

open scoped BigOperators

namespace GS
open Tower

noncomputable instance : Fintype FrW := Fintype.ofEquiv _ FrW.equiv.symm.toEquiv

/-- Sending in words. -/
abbrev sendW := sendStatement FrW.codec codec1W codec2W

/-- The equations of a statement, in words. -/
noncomputable abbrev statementW : List (AnyEqu FrW (blsG1.torsion r381) (blsG2.torsion r381) (Gt (ZMod p381))) → List (AnyEqu FrW (Affine FqW) (Affine (Fp2 FqW)) (OutputW FqW)) :=
  List.map (AnyEqu.rep word1 word2 wordT)

/-- Receiving in words. -/
abbrev receiveW (m : Compress) (v : Validate) (sch : Scheduler) (crs : CRS (Affine FqW) (Affine (Fp2 FqW)) (OutputW FqW)) :=
  receiveStatement FrW.codec codec1W codec2W m v fun (q : AnyEqu FrW (Affine FqW) (Affine (Fp2 FqW)) (OutputW FqW)) cp => wordsVerify sch crs q.one cp

/-- The distribution of the bytes sent, with scalars drawn in words. -/
noncomputable abbrev sentGameW (m : Compress) (N : Nat) := sentGame (N := N) FrW.codec codec1W codec2W m

section bls

theorem checkW_rep (sch : Scheduler) (crs : CRS (blsG1.torsion r381) (blsG2.torsion r381) (Gt (ZMod p381)))
    (q : AnyEqu FrW (blsG1.torsion r381) (blsG2.torsion r381) (Gt (ZMod p381))) (a b : CProof FrW (blsG1.torsion r381) (blsG2.torsion r381))
    (pf : EquProof FrW (blsG1.torsion r381) (blsG2.torsion r381)) :
    wordsVerify sch (crs.rep word1 word2 wordT) (q.rep word1 word2 wordT).one
      ((q.rep word1 word2 wordT).message (a.on word1 word2) (b.on word1 word2) (pf.on word1 word2)) = .ok true ↔
      q.one.verify blsEW sch crs (q.message a b pf) = .ok true := by
  have hm : q.message (a.on word1 word2) (b.on word1 word2) (pf.on word1 word2) = (q.message a b pf).on word1 word2 := by cases q <;> rfl
  rw [message_rep, hm, one_rep, C129_verify, ← asRes_iff, asRes_of]

theorem messageW_ser (m : Compress) (cp : CProof FrW (blsG1.torsion r381) (blsG2.torsion r381)) :
    messageCodecW.ser m (cp.on word1 word2) = (CProof.codec FrW.codec (blsG1.blsCodec blsFq) (blsG2.blsCodec blsFq2)).ser m (messageRepW cp) := by
  rw [← message_wordsW]
  exact (C130_points.1.message C130_points.2 FrW.codec).ser m _

theorem messageW_round (m : Compress) (v : Validate) (cp : CProof FrW (blsG1.torsion r381) (blsG2.torsion r381)) (hcp : cp.Fits) (rest : Bytes) :
    messageCodecW.de m v (messageCodecW.ser m (cp.on word1 word2) ++ rest) = .ok (cp.on word1 word2, rest) := by
  have h : (CProof.codec FrW.codec (blsG1.blsCodec blsFq) (blsG2.blsCodec blsFq2)).de m v
      ((CProof.codec FrW.codec (blsG1.blsCodec blsFq) (blsG2.blsCodec blsFq2)).ser m (messageRepW cp) ++ rest) = .ok (messageRepW cp, rest) := by
    rw [message_strict]
    exact C109_round_message codec_lawful.orderly bls1_represents.orderly bls2_represents.orderly m v (messageRepW cp) (CProof.fits_on.mpr hcp)
      (elems_rep (pF := FrW.codec.Returns m) (fun a rest => codec_lawful.round m .No a rest (by simp)) (bls1_represents.returns m) (bls2_represents.returns m) cp)
      (fun _ => elems_rep codec_valid bls1_represents.valid bls2_represents.valid cp) rest
  rw [messageW_ser, (C130_points.1.message C130_points.2 FrW.codec).de, h, ← message_wordsW]
  rfl

theorem messageW_read (m : Compress) (bs rest : Bytes) (msg : CProof FrW (Affine FqW) (Affine (Fp2 FqW))) (h : messageCodecW.de m .Yes bs = .ok (msg, rest)) :
    ∃ cp : CProof FrW (blsG1.torsion r381) (blsG2.torsion r381), msg = cp.on word1 word2 := by
  rw [(C130_points.1.message C130_points.2 FrW.codec).de] at h
  generalize hd : (CProof.codec FrW.codec (blsG1.blsCodec blsFq) (blsG2.blsCodec blsFq2)).de m .Yes bs = x at h
  rcases x with err | ⟨a, r⟩
  · cases h
  · obtain ⟨rfl, rfl⟩ := Prod.mk.inj (Except.ok.inj h)
    rw [message_strict] at hd
    obtain ⟨cp, rfl, -⟩ := ((C118_read codec_lawful codec_valid bls1_represents bls2_represents m _ _ _).mp hd).2
    exact ⟨cp, message_wordsW cp⟩

/-- C131: the program in words sends the bytes of what is computed on elements of the groups, and panics in the same cases. -/
theorem C131_sent {ρ : Type} [Rng ρ FrW (blsG1.torsion r381) (blsG2.torsion r381)] [Rng ρ FrW (Affine FqW) (Affine (Fp2 FqW))]
    (hr : SameScalars ρ FrW (blsG1.torsion r381) (blsG2.torsion r381) (Affine FqW) (Affine (Fp2 FqW))) (m : Compress) (sch : Nat → Nat → Scheduler)
    (qs : List (AnyEqu FrW (blsG1.torsion r381) (blsG2.torsion r381) (Gt (ZMod p381)))) (w : Vars FrW (blsG1.torsion r381) (blsG2.torsion r381))
    (crs : CRS (blsG1.torsion r381) (blsG2.torsion r381) (Gt (ZMod p381))) (rng : ρ) :
    (proveStatementRaw sch (statementW qs) (w.rep word1 word2) (crs.rep word1 word2 wordT) rng).map (Prod.map (sendW m) id) =
      (proveStatement sch qs w crs rng).map (Prod.map
        (fun r => sendStatement FrW.codec (blsG1.blsCodec blsFq) (blsG2.blsCodec blsFq2) m (repStatement (blsG1.rep r381) (blsG2.rep r381) r)) id) := by
  have hp := C125_program (jT := wordT) C129_carries.1 C129_carries.2 hr sch qs w crs rng
  refine (congrArg _ hp).trans ?_
  rcases proveStatement sch qs w crs rng with p | r
  · rfl
  · show Except.ok (sendW m (repStatement word1 word2 r.1), r.2) = Except.ok (sendStatement _ _ _ m (repStatement _ _ r.1), r.2)
    rw [sendW, sendStatement, sendStatement, sentMessages_rep, sentMessages_rep, messageW_ser, messageW_ser]

/-- C131: completeness for statements, from words to bytes and back to words. -/
theorem C131_honest {ρ : Type} [Rng ρ FrW (Affine FqW) (Affine (Fp2 FqW))] (sch : Nat → Nat → Scheduler) (sch' : Scheduler)
    (crs : CRS (blsG1.torsion r381) (blsG2.torsion r381) (Gt (ZMod p381))) (hc : GeneratedCrs blsEW crs)
    (qs : List (AnyEqu FrW (blsG1.torsion r381) (blsG2.torsion r381) (Gt (ZMod p381)))) (w : Vars FrW (blsG1.torsion r381) (blsG2.torsion r381))
    (hf : ∀ q ∈ qs, q.Fits w) (h : ∀ q ∈ qs, q.Holds blsEW w) (hX : Fits64 w.X) (hx : Fits64 w.x) (hY : Fits64 w.Y) (hy : Fits64 w.y) (hq : Fits64 qs)
    (rng : ρ) (m : Compress) (v : Validate) (rest : Bytes) :
    ∃ r rng', proveStatementRaw sch (statementW qs) (w.rep word1 word2) (crs.rep word1 word2 wordT) rng = .ok (r, rng') ∧
      receiveW m v sch' (crs.rep word1 word2 wordT) (statementW qs) (sendW m r ++ rest) = .ok (.ok true) := by
  let : Rng ρ FrW (blsG1.torsion r381) (blsG2.torsion r381) := ⟨Rng.randF (Affine FqW) (Affine (Fp2 FqW)), fun s => (0, s), fun s => (0, s)⟩
  have hp := C125_program (jT := wordT) C129_carries.1 C129_carries.2
    (fun _ => rfl : SameScalars ρ FrW (blsG1.torsion r381) (blsG2.torsion r381) (Affine FqW) (Affine (Fp2 FqW))) sch qs w crs rng
  have hl : crs.u.length = 2 ∧ crs.v.length = 2 := by obtain ⟨_, _, rng, rfl⟩ := hc; exact ⟨rfl, rfl⟩
  obtain ⟨c, pfs, rng', k, kv⟩ := C60_statement (e := blsEW) hl.1 hl.2 sch qs w hf h rng
  rw [k] at hp
  refine ⟨_, _, hp, ?_⟩
  obtain ⟨f1, f2⟩ := sentMessages_fits hX hx hY hy hq k
  rw [receiveStatement_ok]
  refine ⟨(sentMessages (c, pfs)).1.on word1 word2, _, _, rest, ?_, messageW_round m v _ f2 rest, ?_⟩
  · rw [← messageW_round m v _ f1]
    simp only [sendStatement, sentMessages_rep, List.append_assoc]
  · rw [verifyStatement_true]
    show List.Forall₂ _ (List.map _ qs) (List.map _ (List.map _ pfs))
    rw [List.map_map, List.forall₂_map_left_iff, List.forall₂_map_right_iff]
    exact kv.imp fun q pf hk => (checkW_rep sch' crs q _ _ _).mpr (verify_sent q sch' c pfs pf crs (hk sch'))

/-- C131: soundness for statements. If the receiver in words, validating, accepts any bytes, then they are those of messages over the groups. Their commitments open to values of the variables, and to no others, and these
values satisfy all equations. -/
theorem C131_sound (sch : Scheduler) (crs : CRS (blsG1.torsion r381) (blsG2.torsion r381) (Gt (ZMod p381))) (hc : GeneratedCrs blsEW crs)
    (h0 : crs.NonzeroGens) (qs : List (AnyEqu FrW (blsG1.torsion r381) (blsG2.torsion r381) (Gt (ZMod p381)))) (m : Compress) (bs : Bytes)
    (h : receiveW m .Yes sch (crs.rep word1 word2 wordT) (statementW qs) bs = .ok (.ok true)) :
    ∃ (a b : CProof FrW (blsG1.torsion r381) (blsG2.torsion r381)) (bs' rest : Bytes), messageCodecW.de m .Yes bs = .ok (a.on word1 word2, bs') ∧ messageCodecW.de m .Yes bs' = .ok (b.on word1 word2, rest) ∧
      ∃ w, Vars.OpenedBy w crs a b ∧ ∀ q ∈ qs, q.Holds blsEW w := by
  obtain ⟨a', b', bs', rest, d1, d2, hv⟩ := receiveStatement_ok.mp h
  obtain ⟨a, rfl⟩ := messageW_read m _ _ _ d1
  obtain ⟨b, rfl⟩ := messageW_read m _ _ _ d2
  refine ⟨a, b, bs', rest, d1, d2, ?_⟩
  rw [verifyStatement_true] at hv
  change List.Forall₂ _ (List.map _ qs) (List.map _ a.equ_proofs) at hv
  rw [List.forall₂_map_left_iff, List.forall₂_map_right_iff] at hv
  obtain ⟨X, x, Y, y, oX, ox, oY, oy, kp, k1, k2, kq⟩ := C12_joint_soundness blsEW C129_prime crs hc h0
  have key : ∀ {α β : Type} (P : α → β → Prop) (f : α → β) (l : List α), (∀ c, P c (f c)) → List.Forall₂ P l (l.map f) := by
    intro α β P f l hP
    induction l with
    | nil => exact .nil
    | cons c l ih => exact .cons (hP c) ih
  refine ⟨⟨a.xcoms.coms.map X, b.xcoms.coms.map x, a.ycoms.coms.map Y, b.ycoms.coms.map y⟩, ⟨key _ X _ fun c x' => oX c x', key _ x _ fun c x' => ox c x',
    key _ Y _ fun c x' => oY c x', key _ y _ fun c x' => oy c x'⟩, fun q hq => ?_⟩
  obtain ⟨pf, -, hk⟩ : ∃ pf, pf ∈ a.equ_proofs ∧ q.one.verify blsEW sch crs (q.message a b pf) = .ok true := by
    clear d1 h
    generalize a.equ_proofs = l at hv
    induction hv with
    | nil => simp at hq
    | @cons q' pf qs' l' hqp _ ih =>
      rcases List.mem_cons.mp hq with rfl | hq
      · exact ⟨pf, by simp, (checkW_rep sch crs q a b pf).mp hqp⟩
      · obtain ⟨pf', hm, hk⟩ := ih hq
        exact ⟨pf', List.mem_cons_of_mem _ hm, hk⟩
  cases q with
  | ppe q => exact kp q ⟨a.xcoms, a.ycoms, [pf]⟩ sch hk
  | msmeg1 q => exact k1 q ⟨a.xcoms, b.ycoms, [pf]⟩ sch hk
  | msmeg2 q => exact k2 q ⟨b.xcoms, a.ycoms, [pf]⟩ sch hk
  | quad q => exact kq q ⟨b.xcoms, b.ycoms, [pf]⟩ sch hk

open scoped Classical in
/-- C131: an attacker chooses equations and bytes after seeing a CRS with generators drawn by the sampler. With probability less than `1 / 2 ^ 253` the receiver in words accepts although the bytes are not those of
commitments that open to values satisfying all equations. -/
theorem C131_adaptive_soundness {n : Nat} (hn : 0 < n) (sch : Scheduler) (m : Compress)
    (A : CRS (blsG1.torsion r381) (blsG2.torsion r381) (Gt (ZMod p381)) → List (AnyEqu FrW (blsG1.torsion r381) (blsG2.torsion r381) (Gt (ZMod p381))) × Bytes) :
    sampledGame blsE blsG1 (blsG1.byCofactor r381 cofactor1) blsG2 (blsG2.byCofactor r381 cofactor2) n (fun crs =>
      if receiveW m .Yes sch (crs.rep word1 word2 wordT) (statementW (A crs).1) (A crs).2 = .ok (.ok true) ∧
        ¬ ∃ (a b : CProof FrW (blsG1.torsion r381) (blsG2.torsion r381)) (bs' rest : Bytes), messageCodecW.de m .Yes (A crs).2 = .ok (a.on word1 word2, bs') ∧ messageCodecW.de m .Yes bs' = .ok (b.on word1 word2, rest) ∧
          ∃ w, Vars.OpenedBy w crs a b ∧ ∀ q ∈ (A crs).1, q.Holds blsEW w then 1 else 0) < 1 / 2 ^ 253 := by
  rw [sampledGame_generated (D' := fun crs => if (receiveW m .Yes sch (crs.rep word1 word2 wordT) (statementW (A crs).1) (A crs).2 = .ok (.ok true) ∧
        ¬ ∃ (a b : CProof FrW (blsG1.torsion r381) (blsG2.torsion r381)) (bs' rest : Bytes), messageCodecW.de m .Yes (A crs).2 = .ok (a.on word1 word2, bs') ∧ messageCodecW.de m .Yes bs' = .ok (b.on word1 word2, rest) ∧
          ∃ w, Vars.OpenedBy w crs a b ∧ ∀ q ∈ (A crs).1, q.Holds blsEW w) ∧ GeneratedCrs blsE crs then 1 else 0) fun crs hc => by simp only [hc, and_true]]
  have he := blsPrime C123_bls_pairs.2
  refine (sampled_fooled he C120_clears.1 C120_clears.2 hn _ ?_).trans_lt
    ((C119_adaptive_soundness he C120_clears.1 C120_clears.2 hn).2.2.2.2.1.trans (bls_order_bound.trans_le ?_))
  · rintro crs ⟨⟨k1, k2⟩, hc⟩ hs
    exact k2 (C131_sound sch crs ((C129_same_crs crs).2 hc) ((soundCrs_iff he hc).mp hs) _ m _ k1)
  · have : (0 : ℝ) ≤ 1 / 2 ^ 253 := by positivity
    linarith

/-! ### Draws of words and of residues -/

theorem expectW (f : FrW → ℝ) (g : ZMod r381 → ℝ) (h : ∀ a, f a = g a.toZ) : 𝔼 a : FrW, f a = 𝔼 a : ZMod r381, g a :=
  Fintype.expect_equiv FrW.equiv.toEquiv _ _ h

theorem bindingGameW (D : CRS (blsG1.torsion r381) (blsG2.torsion r381) (Gt (ZMod p381)) → ℝ) : bindingGame blsEW D = bindingGame blsE D :=
  Finset.expect_congr rfl fun _ _ => Finset.expect_congr rfl fun _ _ => expectW _ _ fun _ => expectW _ _ fun _ => expectW _ _ fun _ => expectW _ _ fun _ => rfl

theorem trapdoorGameW (D : CRS (blsG1.torsion r381) (blsG2.torsion r381) (Gt (ZMod p381)) → FrW → FrW → ℝ) :
    trapdoorGame blsEW D = trapdoorGame blsE fun crs t1 t2 => D crs (FrW.ofZ t1) (FrW.ofZ t2) :=
  Finset.expect_congr rfl fun _ _ => Finset.expect_congr rfl fun _ _ => expectW _ _ fun _ => expectW _ _ fun _ => expectW _ _ fun a => expectW _ _ fun b => by
    show _ = D _ (FrW.ofZ a.toZ) (FrW.ofZ b.toZ)
    rw [FrW.ofZ_toZ, FrW.ofZ_toZ]; rfl

theorem ddhAdvW1 (A : blsG1.torsion r381 → blsG1.torsion r381 → blsG1.torsion r381 → blsG1.torsion r381 → ℝ) : ddhAdv FrW A = ddhAdv (ZMod r381) A := by
  have h1 : ddhReal FrW A = ddhReal (ZMod r381) A := Finset.expect_congr rfl fun _ _ => expectW _ _ fun _ => expectW _ _ fun _ => rfl
  have h2 : ddhRand FrW A = ddhRand (ZMod r381) A := Finset.expect_congr rfl fun _ _ => expectW _ _ fun _ => expectW _ _ fun _ => expectW _ _ fun _ => rfl
  rw [ddhAdv, ddhAdv, h1, h2]

theorem ddhAdvW2 (A : blsG2.torsion r381 → blsG2.torsion r381 → blsG2.torsion r381 → blsG2.torsion r381 → ℝ) : ddhAdv FrW A = ddhAdv (ZMod r381) A := by
  have h1 : ddhReal FrW A = ddhReal (ZMod r381) A := Finset.expect_congr rfl fun _ _ => expectW _ _ fun _ => expectW _ _ fun _ => rfl
  have h2 : ddhRand FrW A = ddhRand (ZMod r381) A := Finset.expect_congr rfl fun _ _ => expectW _ _ fun _ => expectW _ _ fun _ => expectW _ _ fun _ => rfl
  rw [ddhAdv, ddhAdv, h1, h2]

theorem sxdhAdvW (D : CRS (blsG1.torsion r381) (blsG2.torsion r381) (Gt (ZMod p381)) → ℝ) : sxdhAdv blsEW D = sxdhAdv blsE D := by
  have h1 : reduce1 blsEW D = reduce1 blsE D := by
    funext p q u w
    exact Finset.expect_congr rfl fun _ _ => expectW _ _ fun _ => expectW _ _ fun _ => rfl
  have h2 : reduce2 blsEW D = reduce2 blsE D := by
    funext p q u w
    exact Finset.expect_congr rfl fun _ _ => expectW _ _ fun _ => expectW _ _ fun _ => rfl
  rw [sxdhAdv, sxdhAdv, h1, h2, ddhAdvW1, ddhAdvW1, ddhAdvW2, ddhAdvW2]

/-- C131: a CRS made with uniform scalars in words is distributed as one made with uniform residues, and attackers against SXDH have the advantages of C63. -/
theorem C131_games (D : CRS (blsG1.torsion r381) (blsG2.torsion r381) (Gt (ZMod p381)) → ℝ) :
    bindingGame blsEW D = bindingGame blsE D ∧ hidingGame blsEW D = hidingGame blsE D ∧ sxdhAdv blsEW D = sxdhAdv blsE D :=
  ⟨bindingGameW D, trapdoorGameW fun crs _ _ => D crs, sxdhAdvW D⟩

/-- The bytes are a function of what is published. -/
theorem sendW_view (m : Compress) (r : VarComs FrW (blsG1.torsion r381) (blsG2.torsion r381) × List (EquProof FrW (blsG1.torsion r381) (blsG2.torsion r381))) :
    sendW m (repStatement word1 word2 r) =
      messageCodecW.ser m ((viewMessages (jointView r)).1.on word1 word2) ++ messageCodecW.ser m ((viewMessages (jointView r)).2.on word1 word2) := by
  rw [sendW, sendStatement, sentMessages_rep, sentMessages_view]

theorem sentGameW_joint (m : Compress) (N : Nat) (sch : Nat → Nat → Scheduler)
    (qs : List (AnyEqu FrW (blsG1.torsion r381) (blsG2.torsion r381) (Gt (ZMod p381)))) (w : Vars FrW (blsG1.torsion r381) (blsG2.torsion r381))
    (crs : CRS (blsG1.torsion r381) (blsG2.torsion r381) (Gt (ZMod p381))) (D : Res Bytes → ℝ) :
    sentGameW m N (fun rng => proveStatementRaw sch (statementW qs) (w.rep word1 word2) (crs.rep word1 word2 wordT) rng) D =
      jointGame (N := N) (fun rng => proveStatement sch qs w crs rng) fun v => D (v.map fun v =>
        messageCodecW.ser m ((viewMessages v).1.on word1 word2) ++ messageCodecW.ser m ((viewMessages v).2.on word1 word2)) := by
  unfold sentGameW sentGame jointGame jointOn
  refine Finset.expect_congr rfl fun t _ => congrArg D ?_
  have hp := C125_program (jT := wordT) C129_carries.1 C129_carries.2
    (fun _ => rfl : SameScalars (List FrW) FrW (blsG1.torsion r381) (blsG2.torsion r381) (Affine FqW) (Affine (Fp2 FqW))) sch qs w crs (List.ofFn t)
  refine (congrArg _ hp).trans ?_
  show _ = Except.map _ (Except.map _ (proveStatement sch qs w crs (List.ofFn t)))
  rcases proveStatement sch qs w crs (List.ofFn t) with p | r
  · rfl
  · exact congrArg Except.ok (sendW_view m r.1)

theorem sentGameW_simulated (m : Compress) (N : Nat) (run : List FrW → Res ((VarComs FrW (blsG1.torsion r381) (blsG2.torsion r381) ×
      List (EquProof FrW (blsG1.torsion r381) (blsG2.torsion r381))) × List FrW)) (D : Res Bytes → ℝ) :
    sentGameW m N (fun rng => (run rng).map (Prod.map (repStatement word1 word2) id)) D =
      jointGame (N := N) run fun v => D (v.map fun v =>
        messageCodecW.ser m ((viewMessages v).1.on word1 word2) ++ messageCodecW.ser m ((viewMessages v).2.on word1 word2)) := by
  unfold sentGameW sentGame jointGame jointOn
  refine Finset.expect_congr rfl fun t _ => congrArg D ?_
  show Except.map _ (Except.map _ (run (List.ofFn t))) = _
  rcases run (List.ofFn t) with p | r
  · rfl
  · exact congrArg Except.ok (sendW_view m r.1)

theorem jointGameW_bounded {N : Nat} (run : List FrW → Res ((VarComs FrW (blsG1.torsion r381) (blsG2.torsion r381) ×
      List (EquProof FrW (blsG1.torsion r381) (blsG2.torsion r381))) × List FrW))
    (D : Res (JointView (blsG1.torsion r381) (blsG2.torsion r381)) → ℝ) (hD : ∀ v, 0 ≤ D v ∧ D v ≤ 1) : 0 ≤ jointGame (N := N) run D ∧ jointGame (N := N) run D ≤ 1 :=
  ⟨Finset.expect_nonneg fun t _ => (hD _).1, (Finset.expect_le_expect fun t _ => (hD _).2).trans (by rw [Fintype.expect_const])⟩

theorem cards_orders : (1 / Fintype.card (blsG1.torsion r381) + 1 / Fintype.card (blsG2.torsion r381) : ℝ) = 2 / r381 := by
  have k1 : Fintype.card (blsG1.torsion r381) = r381 := Nat.card_eq_fintype_card.symm.trans C120_tests.2.2.2.2.1
  have k2 : Fintype.card (blsG2.torsion r381) = r381 := Nat.card_eq_fintype_card.symm.trans C120_tests.2.2.2.2.2
  rw [k1, k2, ← add_div, one_add_one_eq_two]

theorem close_two {a b c d s t : ℝ} (d1 : |a - c| < 1 / 2 ^ 379) (d2 : |b - d| < 1 / 2 ^ 379) (k : |c - d| ≤ s + t + 2 / r381) : |a - b| < s + t + 1 / 2 ^ 253 := by
  have h3 := bls_order_bound
  have h4 := bls_small
  rw [abs_lt] at d1 d2 ⊢
  rw [abs_le] at k
  obtain ⟨a1, a2⟩ := d1
  obtain ⟨b1, b2⟩ := d2
  obtain ⟨c1, c2⟩ := k
  constructor <;> linarith

theorem close_one {a c d s : ℝ} (d1 : |a - c| < 1 / 2 ^ 379) (k : |c - d| ≤ s + 2 / r381) : |a - d| < s + 1 / 2 ^ 253 := by
  have h3 := bls_order_bound
  have h4 := bls_small
  rw [abs_lt] at d1 ⊢
  rw [abs_le] at k
  obtain ⟨a1, a2⟩ := d1
  obtain ⟨c1, c2⟩ := k
  constructor <;> linarith

/-- C131: equations, two solutions and schedules may depend on the CRS. From the bytes that the program in words sends, the two solutions are told apart with an advantage less than that of two attackers against SXDH, plus
`1 / 2 ^ 253`. -/
theorem C131_indistinguishable {n : Nat} (hn : 0 < n) (m : Compress)
    (qs : CRS (blsG1.torsion r381) (blsG2.torsion r381) (Gt (ZMod p381)) → List (AnyEqu FrW (blsG1.torsion r381) (blsG2.torsion r381) (Gt (ZMod p381))))
    (w w' : CRS (blsG1.torsion r381) (blsG2.torsion r381) (Gt (ZMod p381)) → Vars FrW (blsG1.torsion r381) (blsG2.torsion r381))
    (hl : ∀ crs, (w crs).SameLengths (w' crs)) (hf : ∀ crs, ∀ q ∈ qs crs, q.Fits (w crs)) (h : ∀ crs, ∀ q ∈ qs crs, q.Holds blsEW (w crs))
    (h' : ∀ crs, ∀ q ∈ qs crs, q.Holds blsEW (w' crs)) (sch sch' : CRS (blsG1.torsion r381) (blsG2.torsion r381) (Gt (ZMod p381)) → Nat → Nat → Scheduler)
    (D : CRS (blsG1.torsion r381) (blsG2.torsion r381) (Gt (ZMod p381)) → Res Bytes → ℝ) (hD : ∀ crs v, 0 ≤ D crs v ∧ D crs v ≤ 1) :
    let D1 := fun crs => sentGameW m ((w crs).draws + ((qs crs).map AnyEqu.draws).sum)
      (fun rng => proveStatementRaw (sch crs) (statementW (qs crs)) ((w crs).rep word1 word2) (crs.rep word1 word2 wordT) rng) (D crs)
    let D2 := fun crs => sentGameW m ((w crs).draws + ((qs crs).map AnyEqu.draws).sum)
      (fun rng => proveStatementRaw (sch' crs) (statementW (qs crs)) ((w' crs).rep word1 word2) (crs.rep word1 word2 wordT) rng) (D crs)
    |sampledGame blsE blsG1 (blsG1.byCofactor r381 cofactor1) blsG2 (blsG2.byCofactor r381 cofactor2) n D1 -
      sampledGame blsE blsG1 (blsG1.byCofactor r381 cofactor1) blsG2 (blsG2.byCofactor r381 cofactor2) n D2| < sxdhAdv blsE D1 + sxdhAdv blsE D2 + 1 / 2 ^ 253 := by
  intro D1 D2
  simp only [D1, D2, sentGameW_joint]
  have hb := fun crs (v : Res (JointView (blsG1.torsion r381) (blsG2.torsion r381))) => hD crs (v.map fun v =>
        messageCodecW.ser m ((viewMessages v).1.on word1 word2) ++ messageCodecW.ser m ((viewMessages v).2.on word1 word2))
  have k := C63_indistinguishable C129_prime qs w w' hl hf h h' sch sch' _ hb
  simp only [bindingGameW, sxdhAdvW] at k
  have d1 := C120_distance (e := blsE) hn _ fun crs => jointGameW_bounded (N := (w crs).draws + ((qs crs).map AnyEqu.draws).sum)
    (fun rng => proveStatement (sch crs) (qs crs) (w crs) crs rng) _ (hb crs)
  have d2 := C120_distance (e := blsE) hn _ fun crs => jointGameW_bounded (N := (w crs).draws + ((qs crs).map AnyEqu.draws).sum)
    (fun rng => proveStatement (sch' crs) (qs crs) (w' crs) crs rng) _ (hb crs)
  exact close_two d1 d2 (k.trans_eq (congrArg (_ + ·) cards_orders))

/-- C131: the bytes that the program in words sends for a statement whose PPEs have target zero are those of a simulator, up to the advantage of an attacker against SXDH, plus `1 / 2 ^ 253`. The simulator has the trapdoors
and the equations, and not the values. -/
theorem C131_zero_knowledge {n : Nat} (hn : 0 < n) (m : Compress)
    (qs : CRS (blsG1.torsion r381) (blsG2.torsion r381) (Gt (ZMod p381)) → List (AnyEqu FrW (blsG1.torsion r381) (blsG2.torsion r381) (Gt (ZMod p381))))
    (w : CRS (blsG1.torsion r381) (blsG2.torsion r381) (Gt (ZMod p381)) → Vars FrW (blsG1.torsion r381) (blsG2.torsion r381))
    (hf : ∀ crs, ∀ q ∈ qs crs, q.Fits (w crs)) (h : ∀ crs, ∀ q ∈ qs crs, q.Holds blsEW (w crs)) (hs : ∀ crs, ∀ q ∈ qs crs, q.Simulatable)
    (sch sch' : CRS (blsG1.torsion r381) (blsG2.torsion r381) (Gt (ZMod p381)) → Nat → Nat → Scheduler)
    (D : CRS (blsG1.torsion r381) (blsG2.torsion r381) (Gt (ZMod p381)) → Res Bytes → ℝ) (hD : ∀ crs v, 0 ≤ D crs v ∧ D crs v ≤ 1) :
    let D1 := fun crs => sentGameW m ((w crs).draws + ((qs crs).map AnyEqu.draws).sum)
      (fun rng => proveStatementRaw (sch crs) (statementW (qs crs)) ((w crs).rep word1 word2) (crs.rep word1 word2 wordT) rng) (D crs)
    let D2 := fun crs t1 t2 => sentGameW m ((w crs).draws + ((qs crs).map AnyEqu.draws).sum)
      (fun rng => (simulateStatement (sch' crs) (qs crs) (FrW.ofZ t1) (FrW.ofZ t2) (w crs) crs rng).map (Prod.map (repStatement word1 word2) id)) (D crs)
    |sampledGame blsE blsG1 (blsG1.byCofactor r381 cofactor1) blsG2 (blsG2.byCofactor r381 cofactor2) n D1 - trapdoorGame blsE D2| < sxdhAdv blsE D1 + 1 / 2 ^ 253 := by
  intro D1 D2
  simp only [D1, D2, sentGameW_joint, sentGameW_simulated]
  have hb := fun crs (v : Res (JointView (blsG1.torsion r381) (blsG2.torsion r381))) => hD crs (v.map fun v =>
        messageCodecW.ser m ((viewMessages v).1.on word1 word2) ++ messageCodecW.ser m ((viewMessages v).2.on word1 word2))
  have k := C63_zero_knowledge C129_prime qs w hf h hs sch sch' _ hb
  simp only [bindingGameW, sxdhAdvW, trapdoorGameW] at k
  have d1 := C120_distance (e := blsE) hn _ fun crs => jointGameW_bounded (N := (w crs).draws + ((qs crs).map AnyEqu.draws).sum)
    (fun rng => proveStatement (sch crs) (qs crs) (w crs) crs rng) _ (hb crs)
  exact close_one d1 (k.trans_eq (congrArg (_ + ·) cards_orders))

end bls

namespace Ex

/-- Another solution, in words. -/
noncomputable def varsW' : Vars FrW BH1 BH2 := ⟨[logB1.symm 2], [FrW.ofZ 4], [logB2.symm 1], [FrW.ofZ (3 / 2)]⟩

theorem stmtW_holds' : ∀ q ∈ stmtW, q.Holds blsEW varsW' := by
  have k1 : ∀ (a : ZMod r381) (x : BH1), FrW.ofZ a • x = a • x := fun a x => congrArg (· • x) (FrW.toZ_ofZ a)
  have k2 : ∀ (a : ZMod r381) (x : BH2), FrW.ofZ a • x = a • x := fun a x => congrArg (· • x) (FrW.toZ_ofZ a)
  have h2 := two_ne_bls
  have h3 : (4 * (3 / 2) : ZMod r381) = 6 := by field_simp; norm_num
  have k3 : FrW.ofZ 4 * FrW.ofZ (3 / 2) = FrW.ofZ 6 := FrW.models.bij.1 (by
    rw [FrW.models.mul, FrW.toZ_ofZ, FrW.toZ_ofZ, FrW.toZ_ofZ]; exact h3)
  intro q hq
  simp only [stmtW, List.mem_cons, List.not_mem_nil, or_false] at hq
  rcases hq with rfl | rfl | rfl | rfl
  · have j1 := logB1_smul 2 1
    have j2 := logB2_smul 2 1
    rw [mul_one] at j1 j2
    have : blsE (logB1.symm 2) (logB2.symm 1) = blsE (logB1.symm 1) (logB2.symm 2) := by rw [← j1, ← j2]; simp
    simp [AnyEqu.Holds, PPE.Holds, equLhs, varsW']; exact this
  · have : (3 / 2 * 2 : ZMod r381) = 3 := div_mul_cancel₀ 3 h2
    simp [AnyEqu.Holds, MSMEG1.Holds, equLhs, varsW', k1, logB1_smul, this]
  · simp [AnyEqu.Holds, MSMEG2.Holds, equLhs, varsW', k2, logB2_smul]
  · simp [AnyEqu.Holds, QuadEqu.Holds, equLhs, varsW', k3]

theorem varsW_lengths : varsW.SameLengths varsW' := by constructor <;> simp only [varsW, varsW', List.length_cons, List.length_nil]

/-- The statement with a PPE of target zero in place of the first one. -/
noncomputable def stmtW0 : List (AnyEqu FrW BH1 BH2 BT) := .ppe ⟨[-logB1.symm 1], [0], [[1]], 0⟩ :: stmtW.tail

theorem stmtW0_ok : ∀ q ∈ stmtW0, q.Fits varsW ∧ q.Holds blsEW varsW ∧ q.Simulatable := by
  intro q hq
  rcases List.mem_cons.mp hq with rfl | hq
  · exact ⟨⟨by simp [varsW], by simp [varsW], rfl, rfl, rfl, by simp [varsW]⟩, by simp [AnyEqu.Holds, PPE.Holds, equLhs, varsW], rfl⟩
  · refine ⟨stmtW_fits q (List.mem_of_mem_tail hq), stmtW_holds q (List.mem_of_mem_tail hq), ?_⟩
    simp only [stmtW, List.tail_cons, List.mem_cons, List.not_mem_nil, or_false] at hq
    rcases hq with rfl | rfl | rfl <;> exact True.intro

example (sch : Nat → Nat → Scheduler) (m : Compress) :=
  C131_sent (fun _ => rfl : SameScalars (List FrW) FrW BH1 BH2 (Affine FqW) (Affine (Fp2 FqW))) m sch stmtW varsW crsE [FrW.ofZ 1, FrW.ofZ 2]

/-- A statement with an equation of each kind, proved, sent, received and verified in words. The commitments received open to values that satisfy all equations. -/
example (sch : Nat → Nat → Scheduler) (m : Compress) :
    ∃ bs, receiveW m .Yes seqSched (crsE.rep word1 word2 wordT) (statementW stmtW) bs = .ok (.ok true) ∧
      ∃ (a b : CProof FrW BH1 BH2) (bs' rest : Bytes), messageCodecW.de m .Yes bs = .ok (a.on word1 word2, bs') ∧ messageCodecW.de m .Yes bs' = .ok (b.on word1 word2, rest) ∧
      ∃ w, Vars.OpenedBy w crsE a b ∧ ∀ q ∈ stmtW, q.Holds blsEW w := by
  obtain ⟨r, rng', -, hr⟩ := C131_honest sch seqSched crsE crsE_words stmtW varsW stmtW_fits stmtW_holds (by simp [Fits64, varsW]) (by simp [Fits64, varsW])
    (by simp [Fits64, varsW]) (by simp [Fits64, varsW]) (by simp [Fits64, stmtW]) ([] : List FrW) m .Yes [1, 2]
  exact ⟨_, hr, C131_sound seqSched crsE crsE_words crsE_nonzero stmtW m _ hr⟩

/-- A proof is missing, so the receiver does not accept, whatever it reads. -/
example (m : Compress) (bs : Bytes) (a : CProof FrW (Affine FqW) (Affine (Fp2 FqW))) (bs' : Bytes) (h : messageCodecW.de m .Yes bs = .ok (a, bs')) (hl : a.equ_proofs.length < 4) :
    receiveW m .Yes seqSched (crsE.rep word1 word2 wordT) (statementW stmtW) bs ≠ .ok (.ok true) := by
  intro hr
  obtain ⟨a', b', bs'', rest, d1, d2, hv⟩ := receiveStatement_ok.mp hr
  obtain ⟨rfl, rfl⟩ := Prod.mk.inj (Except.ok.inj (h.symm.trans d1))
  have := (verifyStatement_true.mp hv).length_eq
  simp [stmtW] at this
  omega

example (m : Compress) (A : CRS BH1 BH2 BT → List (AnyEqu FrW BH1 BH2 BT) × Bytes) := C131_adaptive_soundness (n := 100) (by decide) seqSched m A

example (m : Compress) (sch sch' : CRS BH1 BH2 BT → Nat → Nat → Scheduler) (D : CRS BH1 BH2 BT → Res Bytes → ℝ) (hD : ∀ crs v, 0 ≤ D crs v ∧ D crs v ≤ 1) :=
  C131_indistinguishable (n := 100) (by decide) m (fun _ => stmtW) (fun _ => varsW) (fun _ => varsW') (fun _ => varsW_lengths)
    (fun _ => stmtW_fits) (fun _ => stmtW_holds) (fun _ => stmtW_holds') sch sch' D hD

example (m : Compress) (sch sch' : CRS BH1 BH2 BT → Nat → Nat → Scheduler) (D : CRS BH1 BH2 BT → Res Bytes → ℝ) (hD : ∀ crs v, 0 ≤ D crs v ∧ D crs v ≤ 1) :=
  C131_zero_knowledge (n := 100) (by decide) m (fun _ => stmtW0) (fun _ => varsW) (fun _ q hq => (stmtW0_ok q hq).1)
    (fun _ q hq => (stmtW0_ok q hq).2.1) (fun _ q hq => (stmtW0_ok q hq).2.2) sch sch' D hD

end Ex

end GS
