import Verif.Lemmas.Sent
import Verif.Props.Ark

/-!
# C125: statements of several equations, from values to bytes and back

C60 to C63 are about elements of groups. Here the program computes on points in coordinates, sends bytes, and the receiver reads them and computes on points in coordinates,
with the verifier of C124.
-/

set_option linter.unusedSectionVars false

open scoped BigOperators

namespace GS

section program
variable {F H1 H2 R1 R2 GT RT : Type} [Field F] [AddCommGroup H1] [Module F H1] [AddCommGroup H2] [Module F H2] [AddCommGroup GT] [Module F GT]
  [Add R1] [Neg R1] [Zero R1] [SMul F R1] [Add R2] [Neg R2] [Zero R2] [SMul F R2] {j1 : H1 → R1} {j2 : H2 → R2} {jT : GT → RT}
  [Add RT] [Zero RT] {ρ : Type} [Rng ρ F H1 H2] [Rng ρ F R1 R2]

/-- C125: on representations the program about statements computes what it computes on elements of the groups, and it panics in the same cases. -/
theorem C125_program (h1 : Carries F j1) (h2 : Carries F j2) (hr : SameScalars ρ F H1 H2 R1 R2) (sch : Nat → Nat → Scheduler)
    (qs : List (AnyEqu F H1 H2 GT)) (w : Vars F H1 H2) (crs : CRS H1 H2 GT) (rng : ρ) :
    proveStatementRaw sch (qs.map (AnyEqu.rep j1 j2 jT)) (w.rep j1 j2) (crs.rep j1 j2 jT) rng =
      (proveStatement sch qs w crs rng).map (Prod.map (repStatement j1 j2) id) := proveStatementRaw_rep h1 h2 hr sch qs w crs rng

end program

/-- Sending, in the formats of ark-bls12-381. -/
noncomputable abbrev blsSend := sendStatement blsFr (blsG1.blsCodec blsFq) (blsG2.blsCodec blsFq2)

/-- The verifier of C124, for an equation of a statement. -/
noncomputable abbrev blsCheck [MulProjective (ZMod r381) (ZMod p381)] [MulProjective (ZMod r381) (Fq2 (ZMod p381))] (sch : Scheduler)
    (crs : CRS (Affine (ZMod p381)) (Affine (Fq2 (ZMod p381))) (Fq12 (ZMod p381)))
    (q : AnyEqu (ZMod r381) (Affine (ZMod p381)) (Affine (Fq2 (ZMod p381))) (Fq12 (ZMod p381))) (cp : CProof (ZMod r381) (Affine (ZMod p381)) (Affine (Fq2 (ZMod p381)))) :=
  blsVerifyArk sch crs q.one cp

/-- The equations of a statement, represented. -/
noncomputable abbrev blsStatement : List (AnyEqu (ZMod r381) (blsG1.torsion r381) (blsG2.torsion r381) (Gt (ZMod p381))) →
    List (AnyEqu (ZMod r381) (Affine (ZMod p381)) (Affine (Fq2 (ZMod p381))) (Fq12 (ZMod p381))) :=
  List.map (AnyEqu.rep (blsG1.rep r381) (blsG2.rep r381) gtRep)

/-- Receiving, in the formats of ark-bls12-381. -/
noncomputable abbrev blsReceive [MulProjective (ZMod r381) (ZMod p381)] [MulProjective (ZMod r381) (Fq2 (ZMod p381))] (m : Compress) (v : Validate) (sch : Scheduler)
    (crs : CRS (Affine (ZMod p381)) (Affine (Fq2 (ZMod p381))) (Fq12 (ZMod p381))) :=
  receiveStatement blsFr (blsG1.blsCodec blsFq) (blsG2.blsCodec blsFq2) m v (blsCheck sch crs)

/-- The distribution of the bytes sent. -/
noncomputable abbrev blsSentGame (m : Compress) (N : Nat) := sentGame (N := N) blsFr (blsG1.blsCodec blsFq) (blsG2.blsCodec blsFq2) m

section bls
variable [MulProjective (ZMod r381) (ZMod p381)] [MulProjective (ZMod r381) (Fq2 (ZMod p381))]

theorem blsCheck_rep (h1 : BlsMul1) (h2 : BlsMul2) (sch : Scheduler) (crs : CRS (blsG1.torsion r381) (blsG2.torsion r381) (Gt (ZMod p381)))
    (q : AnyEqu (ZMod r381) (blsG1.torsion r381) (blsG2.torsion r381) (Gt (ZMod p381))) (a b : CProof (ZMod r381) (blsG1.torsion r381) (blsG2.torsion r381))
    (pf : EquProof (ZMod r381) (blsG1.torsion r381) (blsG2.torsion r381)) :
    blsCheck sch (blsCrsRep crs) (q.rep (blsG1.rep r381) (blsG2.rep r381) gtRep)
      ((q.rep (blsG1.rep r381) (blsG2.rep r381) gtRep).message (blsMessage a) (blsMessage b) (pf.on (blsG1.rep r381) (blsG2.rep r381))) = .ok true ↔
      q.one.verify blsE sch crs (q.message a b pf) = .ok true := by
  have hm : q.message (blsMessage a) (blsMessage b) (pf.on (blsG1.rep r381) (blsG2.rep r381)) = blsMessage (q.message a b pf) := by cases q <;> rfl
  rw [message_rep, hm, ← asRes_ok, blsCheck, one_rep]
  rw [show blsVerifyArk sch (blsCrsRep crs) (q.one.rep (blsG1.rep r381) (blsG2.rep r381) gtRep) (blsMessage (q.message a b pf)) = _ from
    C124_bls_verify h1 h2 sch crs q.one (q.message a b pf), asRes_ofRes]

/-- C125, BLS12-381: completeness for statements. The program does not panic, and the receiver accepts what is sent, whatever follows it. -/
theorem C125_bls_honest {ρ : Type} [Rng ρ (ZMod r381) (Affine (ZMod p381)) (Affine (Fq2 (ZMod p381)))] (h1 : BlsMul1) (h2 : BlsMul2)
    (sch : Nat → Nat → Scheduler) (sch' : Scheduler) (crs : CRS (blsG1.torsion r381) (blsG2.torsion r381) (Gt (ZMod p381))) (hc : GeneratedCrs blsE crs)
    (qs : List (AnyEqu (ZMod r381) (blsG1.torsion r381) (blsG2.torsion r381) (Gt (ZMod p381)))) (w : Vars (ZMod r381) (blsG1.torsion r381) (blsG2.torsion r381))
    (hf : ∀ q ∈ qs, q.Fits w) (h : ∀ q ∈ qs, q.Holds blsE w) (hX : Fits64 w.X) (hx : Fits64 w.x) (hY : Fits64 w.Y) (hy : Fits64 w.y) (hq : Fits64 qs)
    (rng : ρ) (m : Compress) (v : Validate) (rest : Bytes) :
    ∃ r rng', proveStatementRaw sch (blsStatement qs) (w.rep (blsG1.rep r381) (blsG2.rep r381)) (blsCrsRep crs) rng = .ok (r, rng') ∧
      blsReceive m v sch' (blsCrsRep crs) (blsStatement qs) (blsSend m r ++ rest) = .ok (.ok true) := by
  letI : Rng ρ (ZMod r381) (blsG1.torsion r381) (blsG2.torsion r381) :=
    ⟨Rng.randF (Affine (ZMod p381)) (Affine (Fq2 (ZMod p381))), fun s => (0, s), fun s => (0, s)⟩
  obtain ⟨c1, c2⟩ := C122_bls_carries h1 h2
  have hp := C125_program (jT := (gtRep : Gt (ZMod p381) → Fq12 (ZMod p381))) c1 c2
    (fun _ => rfl : SameScalars ρ (ZMod r381) (blsG1.torsion r381) (blsG2.torsion r381) (Affine (ZMod p381)) (Affine (Fq2 (ZMod p381)))) sch qs w crs rng
  have hl : crs.u.length = 2 ∧ crs.v.length = 2 := by obtain ⟨_, _, rng, rfl⟩ := hc; exact ⟨rfl, rfl⟩
  obtain ⟨c, pfs, rng', k, kv⟩ := C60_statement (e := blsE) hl.1 hl.2 sch qs w hf h rng
  rw [k] at hp
  refine ⟨_, _, hp, ?_⟩
  obtain ⟨f1, f2⟩ := sentMessages_fits hX hx hY hy hq k
  have round : ∀ (cp : CProof (ZMod r381) (blsG1.torsion r381) (blsG2.torsion r381)), cp.Fits → ∀ rest,
      (CProof.codec blsFr (blsG1.blsCodec blsFq) (blsG2.blsCodec blsFq2)).de m v ((CProof.codec blsFr (blsG1.blsCodec blsFq) (blsG2.blsCodec blsFq2)).ser m (blsMessage cp) ++ rest) =
        .ok (blsMessage cp, rest) := by
    intro cp hcp rest
    rw [message_strict]
    exact C109_round_message blsFr_lawful.orderly bls1_represents.orderly bls2_represents.orderly m v (blsMessage cp) (CProof.fits_on.mpr hcp)
      (elems_rep (pF := blsFr.Returns m) (fun a rest => blsFr_lawful.round m .No a rest (by simp)) (bls1_represents.returns m) (bls2_represents.returns m) cp)
      (fun _ => elems_rep blsFr_valid bls1_represents.valid bls2_represents.valid cp) rest
  rw [receiveStatement_ok]
  refine ⟨blsMessage (sentMessages (c, pfs)).1, _, _, rest, ?_, round _ f2 rest, ?_⟩
  · rw [← round _ f1]
    simp only [sendStatement, Prod.map_apply, sentMessages_rep, List.append_assoc]
  · rw [verifyStatement_true]
    show List.Forall₂ _ (List.map _ qs) (List.map _ (List.map _ pfs))
    rw [List.map_map, List.forall₂_map_left_iff, List.forall₂_map_right_iff]
    exact kv.imp fun q pf hk => (blsCheck_rep h1 h2 sch' crs q _ _ _).mpr (verify_sent q sch' c pfs pf crs (hk sch'))

/-- C125, BLS12-381: soundness for statements. If the receiver, validating, accepts any bytes, then they are those of messages over the groups. Their commitments open to
values of the variables, and to no others, and these values satisfy all equations. -/
theorem C125_bls_sound (h1 : BlsMul1) (h2 : BlsMul2) (sch : Scheduler) (crs : CRS (blsG1.torsion r381) (blsG2.torsion r381) (Gt (ZMod p381))) (hc : GeneratedCrs blsE crs)
    (h0 : crs.NonzeroGens) (qs : List (AnyEqu (ZMod r381) (blsG1.torsion r381) (blsG2.torsion r381) (Gt (ZMod p381)))) (m : Compress) (bs : Bytes)
    (h : blsReceive m .Yes sch (blsCrsRep crs) (blsStatement qs) bs = .ok (.ok true)) :
    ∃ a b bs' rest, (CProof.codec blsFr (blsG1.blsCodec blsFq) (blsG2.blsCodec blsFq2)).de m .Yes bs = .ok (blsMessage a, bs') ∧
      (CProof.codec blsFr (blsG1.blsCodec blsFq) (blsG2.blsCodec blsFq2)).de m .Yes bs' = .ok (blsMessage b, rest) ∧
      ∃ w, Vars.OpenedBy w crs a b ∧ ∀ q ∈ qs, q.Holds blsE w := by
  obtain ⟨a', b', bs', rest, d1, d2, hv⟩ := receiveStatement_ok.mp h
  obtain ⟨a, rfl, -⟩ := ((C120_read m _ _ _).mp d1).2
  obtain ⟨b, rfl, -⟩ := ((C120_read m _ _ _).mp d2).2
  refine ⟨a, b, bs', rest, d1, d2, ?_⟩
  rw [verifyStatement_true] at hv
  change List.Forall₂ _ (List.map _ qs) (List.map _ a.equ_proofs) at hv
  rw [List.forall₂_map_left_iff, List.forall₂_map_right_iff] at hv
  obtain ⟨X, x, Y, y, oX, ox, oY, oy, kp, k1, k2, kq⟩ := C12_joint_soundness blsE (blsPrime C123_bls_pairs.2) crs hc h0
  have key : ∀ {α β : Type} (P : α → β → Prop) (f : α → β) (l : List α), (∀ c, P c (f c)) → List.Forall₂ P l (l.map f) := by
    intro α β P f l hP
    induction l with
    | nil => exact .nil
    | cons c l ih => exact .cons (hP c) ih
  refine ⟨⟨a.xcoms.coms.map X, b.xcoms.coms.map x, a.ycoms.coms.map Y, b.ycoms.coms.map y⟩, ⟨key _ X _ fun c x' => oX c x', key _ x _ fun c x' => ox c x',
    key _ Y _ fun c x' => oY c x', key _ y _ fun c x' => oy c x'⟩, fun q hq => ?_⟩
  obtain ⟨pf, -, hk⟩ : ∃ pf, pf ∈ a.equ_proofs ∧ q.one.verify blsE sch crs (q.message a b pf) = .ok true := by
    clear d1 h
    generalize a.equ_proofs = l at hv
    induction hv with
    | nil => simp at hq
    | @cons q' pf qs' l' hqp _ ih =>
      rcases List.mem_cons.mp hq with rfl | hq
      · exact ⟨pf, by simp, (blsCheck_rep h1 h2 sch crs q a b pf).mp hqp⟩
      · obtain ⟨pf', hm, hk⟩ := ih hq
        exact ⟨pf', List.mem_cons_of_mem _ hm, hk⟩
  cases q with
  | ppe q => exact kp q ⟨a.xcoms, a.ycoms, [pf]⟩ sch hk
  | msmeg1 q => exact k1 q ⟨a.xcoms, b.ycoms, [pf]⟩ sch hk
  | msmeg2 q => exact k2 q ⟨b.xcoms, a.ycoms, [pf]⟩ sch hk
  | quad q => exact kq q ⟨b.xcoms, b.ycoms, [pf]⟩ sch hk

open scoped Classical in
/-- C125, BLS12-381: an attacker chooses equations and bytes after seeing a CRS with generators drawn by the sampler. With probability less than `1 / 2 ^ 253` the receiver
accepts although the bytes are not those of commitments that open to values satisfying all equations. -/
theorem C125_bls_adaptive_soundness (h1 : BlsMul1) (h2 : BlsMul2) {n : Nat} (hn : 0 < n) (sch : Scheduler) (m : Compress)
    (A : CRS (blsG1.torsion r381) (blsG2.torsion r381) (Gt (ZMod p381)) → List (AnyEqu (ZMod r381) (blsG1.torsion r381) (blsG2.torsion r381) (Gt (ZMod p381))) × Bytes) :
    sampledGame blsE blsG1 (blsG1.byCofactor r381 cofactor1) blsG2 (blsG2.byCofactor r381 cofactor2) n (fun crs =>
      if blsReceive m .Yes sch (blsCrsRep crs) (blsStatement (A crs).1) (A crs).2 = .ok (.ok true) ∧
        ¬ ∃ a b bs' rest, (CProof.codec blsFr (blsG1.blsCodec blsFq) (blsG2.blsCodec blsFq2)).de m .Yes (A crs).2 = .ok (blsMessage a, bs') ∧
          (CProof.codec blsFr (blsG1.blsCodec blsFq) (blsG2.blsCodec blsFq2)).de m .Yes bs' = .ok (blsMessage b, rest) ∧
          ∃ w, Vars.OpenedBy w crs a b ∧ ∀ q ∈ (A crs).1, q.Holds blsE w then 1 else 0) < 1 / 2 ^ 253 := by
  rw [sampledGame_generated (D' := fun crs => if (blsReceive m .Yes sch (blsCrsRep crs) (blsStatement (A crs).1) (A crs).2 = .ok (.ok true) ∧
        ¬ ∃ a b bs' rest, (CProof.codec blsFr (blsG1.blsCodec blsFq) (blsG2.blsCodec blsFq2)).de m .Yes (A crs).2 = .ok (blsMessage a, bs') ∧
          (CProof.codec blsFr (blsG1.blsCodec blsFq) (blsG2.blsCodec blsFq2)).de m .Yes bs' = .ok (blsMessage b, rest) ∧
          ∃ w, Vars.OpenedBy w crs a b ∧ ∀ q ∈ (A crs).1, q.Holds blsE w) ∧ GeneratedCrs blsE crs then 1 else 0) fun crs hc => by simp only [hc, and_true]]
  have he := blsPrime C123_bls_pairs.2
  refine (sampled_fooled he C120_clears.1 C120_clears.2 hn _ ?_).trans_lt
    ((C119_adaptive_soundness he C120_clears.1 C120_clears.2 hn).2.2.2.2.1.trans (bls_order_bound.trans_le ?_))
  · rintro crs ⟨⟨k1, k2⟩, hc⟩ hs
    exact k2 (C125_bls_sound h1 h2 sch crs hc ((soundCrs_iff he hc).mp hs) _ m _ k1)
  · have : (0 : ℝ) ≤ 1 / 2 ^ 253 := by positivity
    linarith

/-- The bytes are a function of what is published. -/
theorem blsSend_view (m : Compress) (r : VarComs (ZMod r381) (blsG1.torsion r381) (blsG2.torsion r381) × List (EquProof (ZMod r381) (blsG1.torsion r381) (blsG2.torsion r381))) :
    blsSend m (repStatement (blsG1.rep r381) (blsG2.rep r381) r) =
      (CProof.codec blsFr (blsG1.blsCodec blsFq) (blsG2.blsCodec blsFq2)).ser m (blsMessage (viewMessages (jointView r)).1) ++
        (CProof.codec blsFr (blsG1.blsCodec blsFq) (blsG2.blsCodec blsFq2)).ser m (blsMessage (viewMessages (jointView r)).2) := by
  rw [blsSend, sendStatement, sentMessages_rep, sentMessages_view]

theorem sentGame_joint (h1 : BlsMul1) (h2 : BlsMul2) (m : Compress) (N : Nat) (sch : Nat → Nat → Scheduler)
    (qs : List (AnyEqu (ZMod r381) (blsG1.torsion r381) (blsG2.torsion r381) (Gt (ZMod p381)))) (w : Vars (ZMod r381) (blsG1.torsion r381) (blsG2.torsion r381))
    (crs : CRS (blsG1.torsion r381) (blsG2.torsion r381) (Gt (ZMod p381))) (D : Res Bytes → ℝ) :
    blsSentGame m N (fun rng => proveStatementRaw sch (blsStatement qs) (w.rep (blsG1.rep r381) (blsG2.rep r381)) (blsCrsRep crs) rng) D =
      jointGame (N := N) (fun rng => proveStatement sch qs w crs rng) fun v => D (v.map fun v =>
        (CProof.codec blsFr (blsG1.blsCodec blsFq) (blsG2.blsCodec blsFq2)).ser m (blsMessage (viewMessages v).1) ++
          (CProof.codec blsFr (blsG1.blsCodec blsFq) (blsG2.blsCodec blsFq2)).ser m (blsMessage (viewMessages v).2)) := by
  obtain ⟨c1, c2⟩ := C122_bls_carries h1 h2
  unfold blsSentGame sentGame jointGame jointOn
  refine Finset.expect_congr rfl fun t _ => congrArg D ?_
  have hp := C125_program (jT := (gtRep : Gt (ZMod p381) → Fq12 (ZMod p381))) c1 c2
    (fun _ => rfl : SameScalars (List (ZMod r381)) (ZMod r381) (blsG1.torsion r381) (blsG2.torsion r381) (Affine (ZMod p381)) (Affine (Fq2 (ZMod p381)))) sch qs w crs (List.ofFn t)
  refine (congrArg _ hp).trans ?_
  show _ = Except.map _ (Except.map _ (proveStatement sch qs w crs (List.ofFn t)))
  rcases proveStatement sch qs w crs (List.ofFn t) with p | r
  · rfl
  · exact congrArg Except.ok (blsSend_view m r.1)

theorem sentGame_simulated (m : Compress) (N : Nat) (run : List (ZMod r381) → Res ((VarComs (ZMod r381) (blsG1.torsion r381) (blsG2.torsion r381) ×
      List (EquProof (ZMod r381) (blsG1.torsion r381) (blsG2.torsion r381))) × List (ZMod r381))) (D : Res Bytes → ℝ) :
    blsSentGame m N (fun rng => (run rng).map (Prod.map (repStatement (blsG1.rep r381) (blsG2.rep r381)) id)) D =
      jointGame (N := N) run fun v => D (v.map fun v =>
        (CProof.codec blsFr (blsG1.blsCodec blsFq) (blsG2.blsCodec blsFq2)).ser m (blsMessage (viewMessages v).1) ++
          (CProof.codec blsFr (blsG1.blsCodec blsFq) (blsG2.blsCodec blsFq2)).ser m (blsMessage (viewMessages v).2)) := by
  unfold blsSentGame sentGame jointGame jointOn
  refine Finset.expect_congr rfl fun t _ => congrArg D ?_
  show Except.map _ (Except.map _ (run (List.ofFn t))) = _
  rcases run (List.ofFn t) with p | r
  · rfl
  · exact congrArg Except.ok (blsSend_view m r.1)

theorem jointGame_bounded {N : Nat} (run : List (ZMod r381) → Res ((VarComs (ZMod r381) (blsG1.torsion r381) (blsG2.torsion r381) ×
      List (EquProof (ZMod r381) (blsG1.torsion r381) (blsG2.torsion r381))) × List (ZMod r381)))
    (D : Res (JointView (blsG1.torsion r381) (blsG2.torsion r381)) → ℝ) (hD : ∀ v, 0 ≤ D v ∧ D v ≤ 1) : 0 ≤ jointGame (N := N) run D ∧ jointGame (N := N) run D ≤ 1 :=
  ⟨Finset.expect_nonneg fun t _ => (hD _).1, (Finset.expect_le_expect fun t _ => (hD _).2).trans (by rw [Fintype.expect_const])⟩

theorem bls_cards : (1 / Fintype.card (blsG1.torsion r381) + 1 / Fintype.card (blsG2.torsion r381) : ℝ) = 2 / r381 := by
  have k1 : Fintype.card (blsG1.torsion r381) = r381 := Nat.card_eq_fintype_card.symm.trans C120_tests.2.2.2.2.1
  have k2 : Fintype.card (blsG2.torsion r381) = r381 := Nat.card_eq_fintype_card.symm.trans C120_tests.2.2.2.2.2
  rw [k1, k2, ← add_div, one_add_one_eq_two]

/-- C125, BLS12-381: equations, two solutions and schedules may depend on the CRS. From the bytes sent, the two solutions are told apart with an advantage less than that of two
attackers against SXDH, plus `1 / 2 ^ 253`. -/
theorem C125_bls_indistinguishable (h1 : BlsMul1) (h2 : BlsMul2) {n : Nat} (hn : 0 < n) (m : Compress)
    (qs : CRS (blsG1.torsion r381) (blsG2.torsion r381) (Gt (ZMod p381)) → List (AnyEqu (ZMod r381) (blsG1.torsion r381) (blsG2.torsion r381) (Gt (ZMod p381))))
    (w w' : CRS (blsG1.torsion r381) (blsG2.torsion r381) (Gt (ZMod p381)) → Vars (ZMod r381) (blsG1.torsion r381) (blsG2.torsion r381))
    (hl : ∀ crs, (w crs).SameLengths (w' crs)) (hf : ∀ crs, ∀ q ∈ qs crs, q.Fits (w crs)) (h : ∀ crs, ∀ q ∈ qs crs, q.Holds blsE (w crs))
    (h' : ∀ crs, ∀ q ∈ qs crs, q.Holds blsE (w' crs)) (sch sch' : CRS (blsG1.torsion r381) (blsG2.torsion r381) (Gt (ZMod p381)) → Nat → Nat → Scheduler)
    (D : CRS (blsG1.torsion r381) (blsG2.torsion r381) (Gt (ZMod p381)) → Res Bytes → ℝ) (hD : ∀ crs v, 0 ≤ D crs v ∧ D crs v ≤ 1) :
    let D1 := fun crs => blsSentGame m ((w crs).draws + ((qs crs).map AnyEqu.draws).sum)
      (fun rng => proveStatementRaw (sch crs) (blsStatement (qs crs)) ((w crs).rep (blsG1.rep r381) (blsG2.rep r381)) (blsCrsRep crs) rng) (D crs)
    let D2 := fun crs => blsSentGame m ((w crs).draws + ((qs crs).map AnyEqu.draws).sum)
      (fun rng => proveStatementRaw (sch' crs) (blsStatement (qs crs)) ((w' crs).rep (blsG1.rep r381) (blsG2.rep r381)) (blsCrsRep crs) rng) (D crs)
    |sampledGame blsE blsG1 (blsG1.byCofactor r381 cofactor1) blsG2 (blsG2.byCofactor r381 cofactor2) n D1 -
      sampledGame blsE blsG1 (blsG1.byCofactor r381 cofactor1) blsG2 (blsG2.byCofactor r381 cofactor2) n D2| < sxdhAdv blsE D1 + sxdhAdv blsE D2 + 1 / 2 ^ 253 := by
  intro D1 D2
  simp only [D1, D2, sentGame_joint h1 h2]
  have hb := fun crs (v : Res (JointView (blsG1.torsion r381) (blsG2.torsion r381))) => hD crs (v.map fun v =>
        (CProof.codec blsFr (blsG1.blsCodec blsFq) (blsG2.blsCodec blsFq2)).ser m (blsMessage (viewMessages v).1) ++
          (CProof.codec blsFr (blsG1.blsCodec blsFq) (blsG2.blsCodec blsFq2)).ser m (blsMessage (viewMessages v).2))
  have k := C63_indistinguishable (blsPrime C123_bls_pairs.2) qs w w' hl hf h h' sch sch' _ hb
  simp only [bls_cards] at k
  have d1 := C120_distance (e := blsE) hn _ fun crs => jointGame_bounded (N := (w crs).draws + ((qs crs).map AnyEqu.draws).sum)
    (fun rng => proveStatement (sch crs) (qs crs) (w crs) crs rng) _ (hb crs)
  have d2 := C120_distance (e := blsE) hn _ fun crs => jointGame_bounded (N := (w crs).draws + ((qs crs).map AnyEqu.draws).sum)
    (fun rng => proveStatement (sch' crs) (qs crs) (w' crs) crs rng) _ (hb crs)
  have h3 := bls_order_bound
  have h4 := bls_small
  rw [abs_lt] at d1 d2 ⊢
  rw [abs_le] at k
  obtain ⟨a1, a2⟩ := d1
  obtain ⟨b1, b2⟩ := d2
  obtain ⟨c1, c2⟩ := k
  constructor <;> linarith

/-- C125, BLS12-381: the bytes sent for a statement whose PPEs have target zero are those of a simulator, up to the advantage of an attacker against SXDH, plus `1 / 2 ^ 253`.
The simulator has the trapdoors and the equations, and not the values. -/
theorem C125_bls_zero_knowledge (h1 : BlsMul1) (h2 : BlsMul2) {n : Nat} (hn : 0 < n) (m : Compress)
    (qs : CRS (blsG1.torsion r381) (blsG2.torsion r381) (Gt (ZMod p381)) → List (AnyEqu (ZMod r381) (blsG1.torsion r381) (blsG2.torsion r381) (Gt (ZMod p381))))
    (w : CRS (blsG1.torsion r381) (blsG2.torsion r381) (Gt (ZMod p381)) → Vars (ZMod r381) (blsG1.torsion r381) (blsG2.torsion r381))
    (hf : ∀ crs, ∀ q ∈ qs crs, q.Fits (w crs)) (h : ∀ crs, ∀ q ∈ qs crs, q.Holds blsE (w crs)) (hs : ∀ crs, ∀ q ∈ qs crs, q.Simulatable)
    (sch sch' : CRS (blsG1.torsion r381) (blsG2.torsion r381) (Gt (ZMod p381)) → Nat → Nat → Scheduler)
    (D : CRS (blsG1.torsion r381) (blsG2.torsion r381) (Gt (ZMod p381)) → Res Bytes → ℝ) (hD : ∀ crs v, 0 ≤ D crs v ∧ D crs v ≤ 1) :
    let D1 := fun crs => blsSentGame m ((w crs).draws + ((qs crs).map AnyEqu.draws).sum)
      (fun rng => proveStatementRaw (sch crs) (blsStatement (qs crs)) ((w crs).rep (blsG1.rep r381) (blsG2.rep r381)) (blsCrsRep crs) rng) (D crs)
    let D2 := fun crs t1 t2 => blsSentGame m ((w crs).draws + ((qs crs).map AnyEqu.draws).sum)
      (fun rng => (simulateStatement (sch' crs) (qs crs) t1 t2 (w crs) crs rng).map (Prod.map (repStatement (blsG1.rep r381) (blsG2.rep r381)) id)) (D crs)
    |sampledGame blsE blsG1 (blsG1.byCofactor r381 cofactor1) blsG2 (blsG2.byCofactor r381 cofactor2) n D1 - trapdoorGame blsE D2| < sxdhAdv blsE D1 + 1 / 2 ^ 253 := by
  intro D1 D2
  simp only [D1, D2, sentGame_joint h1 h2, sentGame_simulated]
  have hb := fun crs (v : Res (JointView (blsG1.torsion r381) (blsG2.torsion r381))) => hD crs (v.map fun v =>
        (CProof.codec blsFr (blsG1.blsCodec blsFq) (blsG2.blsCodec blsFq2)).ser m (blsMessage (viewMessages v).1) ++
          (CProof.codec blsFr (blsG1.blsCodec blsFq) (blsG2.blsCodec blsFq2)).ser m (blsMessage (viewMessages v).2))
  have k := C63_zero_knowledge (blsPrime C123_bls_pairs.2) qs w hf h hs sch sch' _ hb
  simp only [bls_cards] at k
  have d1 := C120_distance (e := blsE) hn _ fun crs => jointGame_bounded (N := (w crs).draws + ((qs crs).map AnyEqu.draws).sum)
    (fun rng => proveStatement (sch crs) (qs crs) (w crs) crs rng) _ (hb crs)
  have h3 := bls_order_bound
  have h4 := bls_small
  rw [abs_lt] at d1 ⊢
  rw [abs_le] at k
  obtain ⟨a1, a2⟩ := d1
  obtain ⟨c1, c2⟩ := k
  constructor <;> linarith

end bls

/-! ### Concrete cases -/

namespace Ex

/-- An equation of each kind; their only terms are products of two variables. -/
noncomputable def stmtE : List (AnyEqu (ZMod r381) BH1 BH2 BT) :=
  [.ppe ppeE, .msmeg1 ⟨[0], [0], [[1]], logB1.symm 3⟩, .msmeg2 ⟨[0], [0], [[1]], logB2.symm 4⟩, .quad ⟨[0], [0], [[1]], 6⟩]

/-- A solution. -/
noncomputable def varsE : Vars (ZMod r381) BH1 BH2 := ⟨[logB1.symm 1], [2], [logB2.symm 2], [3]⟩

/-- Another solution. -/
noncomputable def varsE' : Vars (ZMod r381) BH1 BH2 := ⟨[logB1.symm 2], [4], [logB2.symm 1], [3 / 2]⟩

theorem stmtE_fits : ∀ q ∈ stmtE, q.Fits varsE := by
  intro q hq
  simp only [stmtE, List.mem_cons, List.not_mem_nil, or_false] at hq
  rcases hq with rfl | rfl | rfl | rfl <;> exact ⟨by simp [varsE], by simp [varsE], rfl, rfl, rfl, by simp [varsE, ppeE]⟩

theorem two_ne_bls : (2 : ZMod r381) ≠ 0 := by
  intro h
  have : r381 ∣ 2 := (ZMod.natCast_eq_zero_iff 2 r381).mp (by exact_mod_cast h)
  exact absurd (Nat.le_of_dvd (by decide) this) (by decide +kernel)

theorem logB1_smul (a b : ZMod r381) : a • logB1.symm b = logB1.symm (a * b) := (ZMod.map_smul logB1.symm a b).symm

theorem logB2_smul (a b : ZMod r381) : a • logB2.symm b = logB2.symm (a * b) := (ZMod.map_smul logB2.symm a b).symm

theorem stmtE_holds : ∀ q ∈ stmtE, q.Holds blsE varsE := by
  intro q hq
  simp only [stmtE, List.mem_cons, List.not_mem_nil, or_false] at hq
  rcases hq with rfl | rfl | rfl | rfl
  · exact ppeE_holds
  · simp [AnyEqu.Holds, MSMEG1.Holds, equLhs, varsE, logB1_smul]
  · simp [AnyEqu.Holds, MSMEG2.Holds, equLhs, varsE, logB2_smul]; norm_num
  · simp [AnyEqu.Holds, QuadEqu.Holds, equLhs, varsE]; norm_num

theorem stmtE_holds' : ∀ q ∈ stmtE, q.Holds blsE varsE' := by
  have h2 := two_ne_bls
  intro q hq
  simp only [stmtE, List.mem_cons, List.not_mem_nil, or_false] at hq
  rcases hq with rfl | rfl | rfl | rfl
  · have k1 := logB1_smul 2 1
    have k2 := logB2_smul 2 1
    rw [mul_one] at k1 k2
    simp [AnyEqu.Holds, PPE.Holds, equLhs, varsE', ppeE, ← k1, ← k2]
  · have : (3 / 2 * 2 : ZMod r381) = 3 := div_mul_cancel₀ 3 h2
    simp [AnyEqu.Holds, MSMEG1.Holds, equLhs, varsE', logB1_smul, this]
  · simp [AnyEqu.Holds, MSMEG2.Holds, equLhs, varsE', logB2_smul]
  · have : (4 * (3 / 2) : ZMod r381) = 6 := by field_simp; norm_num
    simp [AnyEqu.Holds, QuadEqu.Holds, equLhs, varsE', this]

theorem varsE_lengths : varsE.SameLengths varsE' := by constructor <;> simp only [varsE, varsE', List.length_cons, List.length_nil]

/-- The statement with a PPE of target zero in place of the first one. -/
noncomputable def stmtE0 : List (AnyEqu (ZMod r381) BH1 BH2 BT) := .ppe ⟨[-logB1.symm 1], [0], [[1]], 0⟩ :: stmtE.tail

theorem stmtE0_ok : ∀ q ∈ stmtE0, q.Fits varsE ∧ q.Holds blsE varsE ∧ q.Simulatable := by
  intro q hq
  rcases List.mem_cons.mp hq with rfl | hq
  · exact ⟨⟨by simp [varsE], by simp [varsE], rfl, rfl, rfl, by simp [varsE]⟩, by simp [AnyEqu.Holds, PPE.Holds, equLhs, varsE], rfl⟩
  · refine ⟨stmtE_fits q (List.mem_of_mem_tail hq), stmtE_holds q (List.mem_of_mem_tail hq), ?_⟩
    simp only [stmtE, List.tail_cons, List.mem_cons, List.not_mem_nil, or_false] at hq
    rcases hq with rfl | rfl | rfl <;> exact True.intro

example (sch : Nat → Nat → Scheduler) :=
  letI := glvMethod (ZMod p381)
  letI := doubleAndAdd r381 (Fq2 (ZMod p381))
  C125_program (jT := (gtRep : BT → Fq12 (ZMod p381))) (C122_bls_carries C122_methods.1 C122_methods.2.2).1 (C122_bls_carries C122_methods.1 C122_methods.2.2).2
    (fun _ => rfl : SameScalars (List (ZMod r381)) (ZMod r381) BH1 BH2 (Affine (ZMod p381)) (Affine (Fq2 (ZMod p381)))) sch stmtE varsE crsE [1, 2, 3]

/-- A statement with an equation of each kind, proved, sent, received and verified. The commitments received open to values that satisfy all equations. -/
example (sch : Nat → Nat → Scheduler) (m : Compress) :
    letI := glvMethod (ZMod p381)
    letI := doubleAndAdd r381 (Fq2 (ZMod p381))
    ∃ bs, blsReceive m .Yes seqSched (blsCrsRep crsE) (blsStatement stmtE) bs = .ok (.ok true) ∧ ∃ a b bs' rest,
      (CProof.codec blsFr (blsG1.blsCodec blsFq) (blsG2.blsCodec blsFq2)).de m .Yes bs = .ok (blsMessage a, bs') ∧
      (CProof.codec blsFr (blsG1.blsCodec blsFq) (blsG2.blsCodec blsFq2)).de m .Yes bs' = .ok (blsMessage b, rest) ∧
      ∃ w, Vars.OpenedBy w crsE a b ∧ ∀ q ∈ stmtE, q.Holds blsE w := by
  let := glvMethod (ZMod p381)
  let := doubleAndAdd r381 (Fq2 (ZMod p381))
  obtain ⟨m1, -, m2⟩ := C122_methods
  obtain ⟨r, rng', -, hr⟩ := C125_bls_honest m1 m2 sch seqSched crsE crsE_generated stmtE varsE stmtE_fits stmtE_holds (by simp [Fits64, varsE]) (by simp [Fits64, varsE])
    (by simp [Fits64, varsE]) (by simp [Fits64, varsE]) (by simp [Fits64, stmtE]) ([] : List (ZMod r381)) m .Yes [1, 2]
  exact ⟨_, hr, C125_bls_sound m1 m2 seqSched crsE crsE_generated crsE_nonzero stmtE m _ hr⟩

/-- A proof is missing, so the receiver does not accept, whatever it reads. -/
example (m : Compress) (bs : Bytes) (a : CProof (ZMod r381) (Affine (ZMod p381)) (Affine (Fq2 (ZMod p381)))) (bs' : Bytes)
    (h : (CProof.codec blsFr (blsG1.blsCodec blsFq) (blsG2.blsCodec blsFq2)).de m .Yes bs = .ok (a, bs')) (hl : a.equ_proofs.length < 4) :
    letI := glvMethod (ZMod p381)
    letI := doubleAndAdd r381 (Fq2 (ZMod p381))
    blsReceive m .Yes seqSched (blsCrsRep crsE) (blsStatement stmtE) bs ≠ .ok (.ok true) := by
  let := glvMethod (ZMod p381)
  let := doubleAndAdd r381 (Fq2 (ZMod p381))
  intro hr
  obtain ⟨a', b', bs'', rest, d1, d2, hv⟩ := receiveStatement_ok.mp hr
  obtain ⟨rfl, rfl⟩ := Prod.mk.inj (Except.ok.inj (h.symm.trans d1))
  have := (verifyStatement_true.mp hv).length_eq
  simp [stmtE] at this
  omega

example (m : Compress) (A : CRS BH1 BH2 BT → List (AnyEqu (ZMod r381) BH1 BH2 BT) × Bytes) :=
  letI := glvMethod (ZMod p381)
  letI := doubleAndAdd r381 (Fq2 (ZMod p381))
  C125_bls_adaptive_soundness C122_methods.1 C122_methods.2.2 (n := 100) (by decide) seqSched m A

example (m : Compress) (sch sch' : CRS BH1 BH2 BT → Nat → Nat → Scheduler) (D : CRS BH1 BH2 BT → Res Bytes → ℝ) (hD : ∀ crs v, 0 ≤ D crs v ∧ D crs v ≤ 1) :=
  letI := glvMethod (ZMod p381)
  letI := doubleAndAdd r381 (Fq2 (ZMod p381))
  C125_bls_indistinguishable C122_methods.1 C122_methods.2.2 (n := 100) (by decide) m (fun _ => stmtE) (fun _ => varsE) (fun _ => varsE') (fun _ => varsE_lengths)
    (fun _ => stmtE_fits) (fun _ => stmtE_holds) (fun _ => stmtE_holds') sch sch' D hD

example (m : Compress) (sch sch' : CRS BH1 BH2 BT → Nat → Nat → Scheduler) (D : CRS BH1 BH2 BT → Res Bytes → ℝ) (hD : ∀ crs v, 0 ≤ D crs v ∧ D crs v ≤ 1) :=
  letI := glvMethod (ZMod p381)
  letI := doubleAndAdd r381 (Fq2 (ZMod p381))
  C125_bls_zero_knowledge C122_methods.1 C122_methods.2.2 (n := 100) (by decide) m (fun _ => stmtE0) (fun _ => varsE) (fun _ q hq => (stmtE0_ok q hq).1)
    (fun _ q hq => (stmtE0_ok q hq).2.1) (fun _ q hq => (stmtE0_ok q hq).2.2) sch sch' D hD

end Ex

end GS
