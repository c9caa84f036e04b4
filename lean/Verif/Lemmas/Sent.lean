import Verif.Spec.Sent
import Verif.Lemmas.Statement
import Verif.Props.Joint
import Verif.Props.Coord

/-! # Lemmas about statements that are sent as bytes -/

set_option linter.unusedSectionVars false

namespace GS

section program
variable {F H1 H2 R1 R2 GT RT : Type} [Field F] [AddCommGroup H1] [Module F H1] [AddCommGroup H2] [Module F H2] [AddCommGroup GT] [Module F GT]
  [Add R1] [Neg R1] [Zero R1] [SMul F R1] [Add R2] [Neg R2] [Zero R2] [SMul F R2] {j1 : H1 → R1} {j2 : H2 → R2} {jT : GT → RT}
  [Add RT] [Zero RT] {ρ : Type} [Rng ρ F H1 H2] [Rng ρ F R1 R2]

omit [AddCommGroup H1] [Module F H1] [AddCommGroup H2] [Module F H2] [AddCommGroup GT] [Module F GT]
  [Add R1] [Neg R1] [Zero R1] [SMul F R1] [Add R2] [Neg R2] [Zero R2] [SMul F R2] [Add RT] [Zero RT] [Rng ρ F H1 H2] [Rng ρ F R1 R2] in
theorem commitUnlessEmpty_rep {α β G R : Type} {j : G → R} {i : α → β} {f : List α → ρ → Res (Commit F G × ρ)} {g : List β → ρ → Res (Commit F R × ρ)}
    (h : ∀ xs rng, g (xs.map i) rng = (f xs rng).map (Prod.map (Commit.on j) id)) (xs : List α) (rng : ρ) :
    commitUnlessEmpty g (xs.map i) rng = (commitUnlessEmpty f xs rng).map (Prod.map (Commit.on j) id) := by
  cases xs with
  | nil => rfl
  | cons x xs => exact h (x :: xs) rng

theorem commitRaw_rep (h1 : Carries F j1) (h2 : Carries F j2) (hr : SameScalars ρ F H1 H2 R1 R2) (w : Vars F H1 H2) (crs : CRS H1 H2 GT) (rng : ρ) :
    (w.rep j1 j2).commitRaw (crs.rep j1 j2 jT) rng = (w.commit crs rng).map (Prod.map (VarComs.rep j1 j2) id) := by
  have k1 := commitUnlessEmpty_rep (j := j1) (i := j1) (f := fun xs rng => batchCommitG1 xs crs rng) (g := fun xs rng => Raw.batchCommitG1 xs (crs.rep j1 j2 jT) rng)
    (fun xs rng => (C122_commit (jT := jT) h1 h2 hr crs rng).2.1 xs) w.X rng
  unfold Vars.commitRaw Vars.commit
  simp only [Vars.rep]
  rw [k1]
  rcases commitUnlessEmpty (fun xs rng => batchCommitG1 xs crs rng) w.X rng with p | ⟨cX, rng1⟩
  · rfl
  have k2 := commitUnlessEmpty_rep (j := j1) (i := id) (f := fun xs rng => batchCommitScalarToB1 xs crs rng) (g := fun xs rng => Raw.batchCommitScalarToB1 xs (crs.rep j1 j2 jT) rng)
    (fun xs rng => by rw [List.map_id]; exact (C122_commit (jT := jT) h1 h2 hr crs rng).2.2.2.1 xs) w.x rng1
  rw [List.map_id] at k2
  simp only [Except.map, bind, Except.bind, Prod.map_apply, id_eq] at k2 ⊢
  rw [k2]
  rcases commitUnlessEmpty (fun xs rng => batchCommitScalarToB1 xs crs rng) w.x rng1 with p | ⟨cx, rng2⟩
  · rfl
  have k3 := commitUnlessEmpty_rep (j := j2) (i := j2) (f := fun xs rng => batchCommitG2 xs crs rng) (g := fun xs rng => Raw.batchCommitG2 xs (crs.rep j1 j2 jT) rng)
    (fun xs rng => (C122_commit (jT := jT) h1 h2 hr crs rng).2.2.2.2.2.1 xs) w.Y rng2
  simp only [Except.map, Prod.map_apply, id_eq] at k3 ⊢
  rw [k3]
  rcases commitUnlessEmpty (fun xs rng => batchCommitG2 xs crs rng) w.Y rng2 with p | ⟨cY, rng3⟩
  · rfl
  have k4 := commitUnlessEmpty_rep (j := j2) (i := id) (f := fun xs rng => batchCommitScalarToB2 xs crs rng) (g := fun xs rng => Raw.batchCommitScalarToB2 xs (crs.rep j1 j2 jT) rng)
    (fun xs rng => by rw [List.map_id]; exact (C122_commit (jT := jT) h1 h2 hr crs rng).2.2.2.2.2.2.2 xs) w.y rng3
  rw [List.map_id] at k4
  simp only [Except.map, Prod.map_apply, id_eq] at k4 ⊢
  rw [k4]
  rcases commitUnlessEmpty (fun xs rng => batchCommitScalarToB2 xs crs rng) w.y rng3 with p | ⟨cy, rng4⟩ <;> rfl

theorem proveRaw_rep (h1 : Carries F j1) (h2 : Carries F j2) (hr : SameScalars ρ F H1 H2 R1 R2) (sch : Nat → Scheduler) (q : AnyEqu F H1 H2 GT) (w : Vars F H1 H2)
    (c : VarComs F H1 H2) (crs : CRS H1 H2 GT) (rng : ρ) :
    (q.rep j1 j2 jT).proveRaw sch (w.rep j1 j2) (c.rep j1 j2) (crs.rep j1 j2 jT) rng = (q.prove sch w c crs rng).map (Prod.map (EquProof.on j1 j2) id) := by
  cases q with
  | ppe q => exact (C122_prove h1 h2 hr sch c.X c.Y crs rng).1 q w.X w.Y
  | msmeg1 q => exact (C122_prove (jT := jT) h1 h2 hr sch c.X c.y crs rng).2.1 q w.X w.y
  | msmeg2 q => exact (C122_prove (jT := jT) h1 h2 hr sch c.x c.Y crs rng).2.2.1 q w.x w.Y
  | quad q => exact (C122_prove (jT := jT) h1 h2 hr sch c.x c.y crs rng).2.2.2 q w.x w.y

omit [Field F] [AddCommGroup H1] [Module F H1] [AddCommGroup H2] [Module F H2] [AddCommGroup GT] [Module F GT]
  [Add R1] [Neg R1] [Zero R1] [SMul F R1] [Add R2] [Neg R2] [Zero R2] [SMul F R2] [Add RT] [Zero RT] [Rng ρ F H1 H2] [Rng ρ F R1 R2] in
theorem proveAll_rep {E E' P P' : Type} {f : E → E'} {g : P → P'} {prove : E → ρ → Res (P × ρ)} {prove' : E' → ρ → Res (P' × ρ)}
    (h : ∀ q rng, prove' (f q) rng = (prove q rng).map (Prod.map g id)) (qs : List E) (rng : ρ) :
    proveAll prove' (qs.map f) rng = (proveAll prove qs rng).map (Prod.map (List.map g) id) := by
  induction qs generalizing rng with
  | nil => rfl
  | cons q qs ih =>
    simp only [List.map_cons, proveAll, h]
    rcases prove q rng with p | ⟨pf, rng1⟩
    · rfl
    simp only [Except.map, bind, Except.bind, Prod.map_apply, id_eq, ih]
    rcases proveAll prove qs rng1 with p | ⟨pfs, rng2⟩ <;> rfl

theorem proveStatementRaw_rep (h1 : Carries F j1) (h2 : Carries F j2) (hr : SameScalars ρ F H1 H2 R1 R2) (sch : Nat → Nat → Scheduler)
    (qs : List (AnyEqu F H1 H2 GT)) (w : Vars F H1 H2) (crs : CRS H1 H2 GT) (rng : ρ) :
    proveStatementRaw sch (qs.map (AnyEqu.rep j1 j2 jT)) (w.rep j1 j2) (crs.rep j1 j2 jT) rng =
      (proveStatement sch qs w crs rng).map (Prod.map (repStatement j1 j2) id) := by
  unfold proveStatementRaw proveStatement
  rw [commitRaw_rep h1 h2 hr]
  rcases w.commit crs rng with p | ⟨c, rng1⟩
  · rfl
  have k := proveAll_rep (f := Prod.map (AnyEqu.rep j1 j2 jT) id) (g := EquProof.on j1 j2)
    (prove := fun (q : AnyEqu F H1 H2 GT × Nat) rng => q.1.prove (sch q.2) w c crs rng)
    (prove' := fun (q : AnyEqu F R1 R2 RT × Nat) rng => q.1.proveRaw (sch q.2) (w.rep j1 j2) (c.rep j1 j2) (crs.rep j1 j2 jT) rng)
    (fun q rng => proveRaw_rep h1 h2 hr (sch q.2) q.1 w c crs rng) qs.zipIdx rng1
  rw [List.zipIdx_map]
  simp only [Except.map, bind, Except.bind, Prod.map_apply, id_eq] at k ⊢
  rw [k]
  rcases proveAll (fun (q : AnyEqu F H1 H2 GT × Nat) rng => q.1.prove (sch q.2) w c crs rng) qs.zipIdx rng1 with p | ⟨pfs, rng2⟩ <;> rfl

end program

section bytes
variable {F H1 H2 R1 R2 GT RT : Type} {j1 : H1 → R1} {j2 : H2 → R2} {jT : GT → RT}

/-- The messages sent depend on what is published only. -/
def viewMessages (v : JointView H1 H2) : CProof F H1 H2 × CProof F H1 H2 :=
  (⟨⟨v.1.1, []⟩, ⟨v.1.2.2.1, []⟩, v.2.map fun p => ⟨p.1, p.2.1, p.2.2, []⟩⟩, ⟨⟨v.1.2.1, []⟩, ⟨v.1.2.2.2, []⟩, []⟩)

theorem sentMessages_view (r : VarComs F H1 H2 × List (EquProof F H1 H2)) : sentMessages r = viewMessages (jointView r) := by
  simp only [sentMessages, viewMessages, jointView, Commit.bare, List.map_map]
  rfl

theorem sentMessages_rep (r : VarComs F H1 H2 × List (EquProof F H1 H2)) :
    sentMessages (repStatement j1 j2 r) = ((sentMessages r).1.on j1 j2, (sentMessages r).2.on j1 j2) := by
  simp only [sentMessages, repStatement, VarComs.rep, Commit.on, Commit.bare, CProof.on, List.map_map, List.map_nil]
  rfl

theorem message_rep (q : AnyEqu F H1 H2 GT) (a b : CProof F R1 R2) (pf : EquProof F R1 R2) :
    (q.rep j1 j2 jT).message a b pf = q.message a b pf := by cases q <;> rfl

theorem one_rep (q : AnyEqu F H1 H2 GT) : (q.rep j1 j2 jT).one = q.one.rep j1 j2 jT := by cases q <;> rfl

theorem verifyStatement_true {ε : Type} {verify : AnyEqu F R1 R2 RT → CProof F R1 R2 → Except ε Bool} {a b : CProof F R1 R2} {qs : List (AnyEqu F R1 R2 RT)}
    {pfs : List (EquProof F R1 R2)} :
    verifyStatement verify a b qs pfs = .ok true ↔ List.Forall₂ (fun q pf => verify q (q.message a b pf) = .ok true) qs pfs := by
  induction qs generalizing pfs with
  | nil => cases pfs <;> simp [verifyStatement, pure, Except.pure]
  | cons q qs ih =>
    cases pfs with
    | nil => simp [verifyStatement, pure, Except.pure]
    | cons pf pfs =>
      rw [List.forall₂_cons, ← ih, verifyStatement]
      rcases verify q (q.message a b pf) with p | _ | _ <;> simp [bind, Except.bind, pure, Except.pure]

theorem receiveStatement_ok {ε : Type} {cF : Codec F} {c1 : Codec R1} {c2 : Codec R2} {m : Compress} {v : Validate}
    {verify : AnyEqu F R1 R2 RT → CProof F R1 R2 → Except ε Bool} {qs : List (AnyEqu F R1 R2 RT)} {bs : Bytes} {r : Except ε Bool} :
    receiveStatement cF c1 c2 m v verify qs bs = .ok r ↔ ∃ a b bs' rest, (CProof.codec cF c1 c2).de m v bs = .ok (a, bs') ∧
      (CProof.codec cF c1 c2).de m v bs' = .ok (b, rest) ∧ verifyStatement verify a b qs a.equ_proofs = r := by
  unfold receiveStatement
  rcases (CProof.codec cF c1 c2).de m v bs with p | ⟨a, bs'⟩
  · simp [bind, Except.bind]
  rcases h : (CProof.codec cF c1 c2).de m v bs' with p | ⟨b, rest⟩
  · simp only [bind, Except.bind, h, reduceCtorEq, Except.ok.injEq, Prod.mk.injEq, false_iff, not_exists, not_and]
    rintro a' b' bs'' rest' ⟨rfl, rfl⟩ h'
    rw [h] at h'; cases h'
  · simp only [bind, Except.bind, h, pure, Except.pure, Except.ok.injEq, Prod.mk.injEq]
    constructor
    · rintro rfl
      exact ⟨a, b, bs', rest, ⟨rfl, rfl⟩, h, rfl⟩
    · rintro ⟨a', b', bs'', rest', ⟨rfl, rfl⟩, h', hr⟩
      rw [h] at h'; cases h'
      exact hr

end bytes

section sizes
variable {F G1 G2 GT : Type} [Field F] [AddCommGroup G1] [Module F G1] [AddCommGroup G2] [Module F G2] [AddCommGroup GT] [Module F GT] {ρ : Type} [Rng ρ F G1 G2]

omit [Field F] in
theorem commitUnlessEmpty_size {α G : Type} {f : List α → ρ → Res (Commit F G × ρ)} (h : ∀ xs rng c rng', f xs rng = .ok (c, rng') → c.coms.length = xs.length)
    {xs : List α} {rng rng' : ρ} {c : Commit F G} (hc : commitUnlessEmpty f xs rng = .ok (c, rng')) : c.coms.length = xs.length := by
  cases xs with
  | nil => cases hc; rfl
  | cons x xs => exact h _ _ _ _ hc

theorem vars_commit_size {w : Vars F G1 G2} {crs : CRS G1 G2 GT} {rng rng' : ρ} {c : VarComs F G1 G2} (h : w.commit crs rng = .ok (c, rng')) :
    c.X.coms.length = w.X.length ∧ c.x.coms.length = w.x.length ∧ c.Y.coms.length = w.Y.length ∧ c.y.coms.length = w.y.length := by
  unfold Vars.commit at h
  rcases k1 : commitUnlessEmpty (fun xs rng => batchCommitG1 (F := F) xs crs rng) w.X rng with p | ⟨cX, s1⟩
  · rw [k1] at h; cases h
  rcases k2 : commitUnlessEmpty (fun xs rng => batchCommitScalarToB1 (F := F) (G1 := G1) (G2 := G2) xs crs rng) w.x s1 with p | ⟨cx, s2⟩
  · simp [k1, k2] at h
  rcases k3 : commitUnlessEmpty (fun xs rng => batchCommitG2 (F := F) xs crs rng) w.Y s2 with p | ⟨cY, s3⟩
  · simp [k1, k2, k3] at h
  rcases k4 : commitUnlessEmpty (fun xs rng => batchCommitScalarToB2 xs crs rng) w.y s3 with p | ⟨cy, s4⟩
  · simp [k1, k2, k3, k4] at h
  simp only [k1, k2, k3, k4, bind, Except.bind, pure, Except.pure, Except.ok.injEq, Prod.mk.injEq] at h
  obtain ⟨rfl, -⟩ := h
  have key := fun (rng rng' : ρ) (c : Commit F G1) (d : Commit F G2) => C38_commitments crs rng rng' c d
  exact ⟨commitUnlessEmpty_size (f := fun xs rng => batchCommitG1 xs crs rng) (fun xs rng c rng' h => ((key rng rng' c ⟨[], []⟩).1 xs h).1) k1,
    commitUnlessEmpty_size (f := fun xs rng => batchCommitScalarToB1 xs crs rng) (fun xs rng c rng' h => ((key rng rng' c ⟨[], []⟩).2.2.1 xs h).1) k2,
    commitUnlessEmpty_size (f := fun xs rng => batchCommitG2 xs crs rng) (fun xs rng c rng' h => ((key rng rng' ⟨[], []⟩ c).2.1 xs h).1) k3,
    commitUnlessEmpty_size (f := fun xs rng => batchCommitScalarToB2 xs crs rng) (fun xs rng c rng' h => ((key rng rng' ⟨[], []⟩ c).2.2.2.1 xs h).1) k4⟩

omit [Field F] in
theorem proveAll_sizes {E P : Type} {prove : E → ρ → Res (P × ρ)} {good : P → Prop} (h : ∀ q rng pf rng', prove q rng = .ok (pf, rng') → good pf) {qs : List E} {rng rng' : ρ}
    {pfs : List P} (hp : proveAll prove qs rng = .ok (pfs, rng')) : pfs.length = qs.length ∧ ∀ pf ∈ pfs, good pf := by
  induction qs generalizing rng rng' pfs with
  | nil => cases hp; simp
  | cons q qs ih =>
    unfold proveAll at hp
    rcases k1 : prove q rng with p | ⟨pf, s1⟩
    · rw [k1] at hp; cases hp
    rcases k2 : proveAll prove qs s1 with p | ⟨pfs', s2⟩
    · simp [k1, k2] at hp
    simp only [k1, k2, bind, Except.bind, pure, Except.pure, Except.ok.injEq, Prod.mk.injEq] at hp
    obtain ⟨rfl, -⟩ := hp
    obtain ⟨hl, hg⟩ := ih k2
    refine ⟨by simp [hl], fun pf' hpf => ?_⟩
    rcases List.mem_cons.mp hpf with rfl | hpf
    exacts [h _ _ _ _ k1, hg _ hpf]

theorem proveStatement_sizes {sch : Nat → Nat → Scheduler} {qs : List (AnyEqu F G1 G2 GT)} {w : Vars F G1 G2} {crs : CRS G1 G2 GT} {rng rng' : ρ} {c : VarComs F G1 G2}
    {pfs : List (EquProof F G1 G2)} (h : proveStatement sch qs w crs rng = .ok ((c, pfs), rng')) :
    (c.X.coms.length = w.X.length ∧ c.x.coms.length = w.x.length ∧ c.Y.coms.length = w.Y.length ∧ c.y.coms.length = w.y.length) ∧ pfs.length = qs.length ∧
      ∀ pf ∈ pfs, pf.pi.length ≤ 2 ∧ pf.theta.length ≤ 2 := by
  unfold proveStatement at h
  rcases k1 : w.commit crs rng with p | ⟨c', s1⟩
  · rw [k1] at h; cases h
  rcases k2 : proveAll (fun (q : AnyEqu F G1 G2 GT × Nat) rng => q.1.prove (sch q.2) w c' crs rng) qs.zipIdx s1 with p | ⟨pfs', s2⟩
  · simp [k1, k2] at h
  simp only [k1, k2, bind, Except.bind, pure, Except.pure, Except.ok.injEq, Prod.mk.injEq] at h
  obtain ⟨⟨rfl, rfl⟩, -⟩ := h
  obtain ⟨hl, hg⟩ := proveAll_sizes (prove := fun (q : AnyEqu F G1 G2 GT × Nat) rng => q.1.prove (sch q.2) w c' crs rng)
    (good := fun pf => pf.pi.length ≤ 2 ∧ pf.theta.length ≤ 2) (fun q rng pf rng' hp => by
    obtain ⟨q, k⟩ := q
    cases q with
    | ppe q => obtain ⟨-, -, h1, h2⟩ := (C38_proofs (sch k) crs rng rng' _ _ pf).1 q _ _ hp; omega
    | msmeg1 q => obtain ⟨-, -, h1, h2⟩ := (C38_proofs (sch k) crs rng rng' _ _ pf).2.1 q _ _ hp; omega
    | msmeg2 q => obtain ⟨-, -, h1, h2⟩ := (C38_proofs (sch k) crs rng rng' _ _ pf).2.2.1 q _ _ hp; omega
    | quad q => obtain ⟨-, -, h1, h2⟩ := (C38_proofs (sch k) crs rng rng' _ _ pf).2.2.2 q _ _ hp; omega) k2
  exact ⟨vars_commit_size k1, by rw [hl, List.length_zipIdx], hg⟩

theorem sentMessages_fits {w : Vars F G1 G2} (hX : Fits64 w.X) (hx : Fits64 w.x) (hY : Fits64 w.Y) (hy : Fits64 w.y) {qs : List (AnyEqu F G1 G2 GT)} (hq : Fits64 qs)
    {sch : Nat → Nat → Scheduler} {crs : CRS G1 G2 GT} {rng rng' : ρ} {c : VarComs F G1 G2}
    {pfs : List (EquProof F G1 G2)} (h : proveStatement sch qs w crs rng = .ok ((c, pfs), rng')) :
    (sentMessages (c, pfs)).1.Fits ∧ (sentMessages (c, pfs)).2.Fits := by
  obtain ⟨⟨a1, a2, a3, a4⟩, a5, a6⟩ := proveStatement_sizes h
  have hnil : FitsMat ([] : Matrix F) := ⟨by simp [Fits64], by simp⟩
  unfold Fits64 at hX hx hY hy hq
  refine ⟨⟨⟨a1.trans_lt hX, hnil⟩, ⟨a3.trans_lt hY, hnil⟩, ?_, ?_⟩, ⟨a2.trans_lt hx, hnil⟩, ⟨a4.trans_lt hy, hnil⟩, by simp [sentMessages, Fits64], by simp [sentMessages]⟩
  · show (List.map _ pfs).length < _
    rw [List.length_map]; omega
  · intro pf hpf
    obtain ⟨pf', h1, rfl⟩ := List.mem_map.mp hpf
    obtain ⟨b1, b2⟩ := a6 pf' h1
    have : 2 < 2 ^ 64 := by decide
    exact ⟨by show _ < _; exact b1.trans_lt this, by show _ < _; exact b2.trans_lt this, hnil⟩

end sizes

section verify
variable {F G1 G2 GT : Type} [Field F] [AddCommGroup G1] [Module F G1] [AddCommGroup G2] [Module F G2] [AddCommGroup GT] [Module F GT] [DecidableEq GT]
  {e : G1 →ₗ[F] G2 →ₗ[F] GT}

/-- What is left out when sending does not matter for `verify`. -/
theorem verify_sent (q : AnyEqu F G1 G2 GT) (sch : Scheduler) (c : VarComs F G1 G2) (pfs : List (EquProof F G1 G2)) (pf : EquProof F G1 G2) (crs : CRS G1 G2 GT)
    (h : q.verify e sch c pf crs = .ok true) :
    q.one.verify e sch crs (q.message (sentMessages (c, pfs)).1 (sentMessages (c, pfs)).2 pf.bare) = .ok true := by
  cases q with
  | ppe q => exact ((C43_randomness_ignored (e := e) (sch := sch) (crs := crs) (cp := ⟨c.X, c.Y, [pf]⟩) ⟨c.X.bare, c.Y.bare, [pf.bare]⟩ rfl).1 q).1 true |>.mp h
  | msmeg1 q => exact ((C43_randomness_ignored (e := e) (sch := sch) (crs := crs) (cp := ⟨c.X, c.y, [pf]⟩) ⟨c.X.bare, c.y.bare, [pf.bare]⟩ rfl).2.1 q).1 true |>.mp h
  | msmeg2 q => exact ((C43_randomness_ignored (e := e) (sch := sch) (crs := crs) (cp := ⟨c.x, c.Y, [pf]⟩) ⟨c.x.bare, c.Y.bare, [pf.bare]⟩ rfl).2.2.1 q).1 true |>.mp h
  | quad q => exact ((C43_randomness_ignored (e := e) (sch := sch) (crs := crs) (cp := ⟨c.x, c.y, [pf]⟩) ⟨c.x.bare, c.y.bare, [pf.bare]⟩ rfl).2.2.2 q).1 true |>.mp h

end verify

end GS
