import Verif.Lemmas.TraceSize
import Verif.Props.Example

/-!
# What an execution does depends on the sizes of its inputs only

The traced functions of `Verif/Model/Trace.lean` return what the functions return (`C90_traced_*`), and which operations they
execute, in which order and whether they panic is the same for any two inputs of the same sizes, even over different groups.
-/

namespace GS
variable {F G1 G2 GT F' G1' G2' GT' : Type} [Field F] [AddCommGroup G1] [Module F G1] [AddCommGroup G2] [Module F G2]
  [Field F'] [AddCommGroup G1'] [Module F' G1'] [AddCommGroup G2'] [Module F' G2']

/-! ## The traced functions compute the same -/

section
variable {ρ : Type} [Rng ρ F G1 G2]

theorem C90_traced_commit (X : G1) (Y : G2) (x : F) (crs : CRS G1 G2 GT) (rng : ρ) :
    (commitG1Tr (F := F) X crs rng).res = commitG1 X crs rng ∧ (commitG2Tr (F := F) Y crs rng).res = commitG2 Y crs rng ∧
      (commitScalarToB1Tr x crs rng).res = commitScalarToB1 x crs rng ∧
      (commitScalarToB2Tr x crs rng).res = commitScalarToB2 x crs rng := by
  simp

theorem C90_traced_batch_commit (X : List G1) (Y : List G2) (x : List F) (crs : CRS G1 G2 GT) (rng : ρ) :
    (batchCommitG1Tr (F := F) X crs rng).res = batchCommitG1 X crs rng ∧
      (batchCommitG2Tr (F := F) Y crs rng).res = batchCommitG2 Y crs rng ∧
      (batchCommitScalarToB1Tr x crs rng).res = batchCommitScalarToB1 x crs rng ∧
      (batchCommitScalarToB2Tr x crs rng).res = batchCommitScalarToB2 x crs rng := by
  simp

theorem C90_traced_generate [AddCommGroup GT] [Module F GT] (e : G1 →ₗ[F] G2 →ₗ[F] GT) (rng : ρ) :
    (generateCrsTr (F := F) e rng).res = .ok (generateCrs e rng) := generateCrsTr_res e rng

theorem C90_traced_ppe [AddCommGroup GT] [Module F GT] [DecidableEq GT] (e : G1 →ₗ[F] G2 →ₗ[F] GT) (sch : Nat → Scheduler) (s : PPE F G1 G2 GT)
    (x : List G1) (y : List G2) (cx : Commit F G1) (cy : Commit F G2) (pf : CProof F G1 G2) (crs : CRS G1 G2 GT) (rng : ρ) :
    (s.proveTr sch x y cx cy crs rng).res = s.prove sch x y cx cy crs rng ∧
      (s.commitAndProveTr sch x y crs rng).res = s.commitAndProve sch x y crs rng ∧
      (s.verifyTr e (sch 0) pf crs).res = s.verify e (sch 0) pf crs := by
  simp

theorem C90_traced_msmeg1 [AddCommGroup GT] [Module F GT] [DecidableEq GT] (e : G1 →ₗ[F] G2 →ₗ[F] GT) (sch : Nat → Scheduler) (s : MSMEG1 F G1)
    (x : List G1) (y : List F) (cx : Commit F G1) (cy : Commit F G2) (pf : CProof F G1 G2) (crs : CRS G1 G2 GT) (rng : ρ) :
    (s.proveTr sch x y cx cy crs rng).res = s.prove sch x y cx cy crs rng ∧
      (s.commitAndProveTr sch x y crs rng).res = s.commitAndProve sch x y crs rng ∧
      (s.verifyTr e (sch 0) pf crs).res = s.verify e (sch 0) pf crs := by
  simp

theorem C90_traced_msmeg2 [AddCommGroup GT] [Module F GT] [DecidableEq GT] (e : G1 →ₗ[F] G2 →ₗ[F] GT) (sch : Nat → Scheduler) (s : MSMEG2 F G2)
    (x : List F) (y : List G2) (cx : Commit F G1) (cy : Commit F G2) (pf : CProof F G1 G2) (crs : CRS G1 G2 GT) (rng : ρ) :
    (s.proveTr sch x y cx cy crs rng).res = s.prove sch x y cx cy crs rng ∧
      (s.commitAndProveTr sch x y crs rng).res = s.commitAndProve sch x y crs rng ∧
      (s.verifyTr e (sch 0) pf crs).res = s.verify e (sch 0) pf crs := by
  simp

theorem C90_traced_quad [AddCommGroup GT] [Module F GT] [DecidableEq GT] (e : G1 →ₗ[F] G2 →ₗ[F] GT) (sch : Nat → Scheduler) (s : QuadEqu F)
    (x : List F) (y : List F) (cx : Commit F G1) (cy : Commit F G2) (pf : CProof F G1 G2) (crs : CRS G1 G2 GT) (rng : ρ) :
    (s.proveTr sch x y cx cy crs rng).res = s.prove sch x y cx cy crs rng ∧
      (s.commitAndProveTr sch x y crs rng).res = s.commitAndProve sch x y crs rng ∧
      (s.verifyTr e (sch 0) pf crs).res = s.verify e (sch 0) pf crs := by
  simp

/-! `commit_and_prove` executes what committing and proving execute, one after the other, and what is executed counts whether or not the call panics later. -/

theorem ops_bind {α β : Type} {a : Tr α} {x : α} (h : a.res = .ok x) (f : α → Tr β) : (a >>= f).ops = a.ops ++ (f x).ops := by
  show (Tr.bind a f).ops = _
  rw [Tr.bind, h]

theorem ops_bind' {α β : Type} {a : Tr α} {x : α} (h : a.res = .ok x) (f : α → Tr β) : (Tr.bind a f).ops = a.ops ++ (f x).ops := ops_bind h f

theorem ops_pure {α β : Type} (a : Tr α) (f : α → β) : (a >>= fun x => pure (f x)).ops = a.ops := by
  show (Tr.bind a _).ops = _
  rw [Tr.bind]
  cases a.res
  · rfl
  · exact List.append_nil _

/-- C90: the operations of `commit_and_prove` of `PPE`, a panic while proving included. -/
theorem C90_ppe_steps (sch : Nat → Scheduler) (s : PPE F G1 G2 GT) (x : List G1) (y : List G2) (crs : CRS G1 G2 GT) (rng : ρ) {cx : Commit F G1} {cy : Commit F G2} {rng₁ rng₂ : ρ}
    (h1 : batchCommitG1 x crs rng = .ok (cx, rng₁)) (h2 : batchCommitG2 y crs rng₁ = .ok (cy, rng₂)) :
    (s.commitAndProveTr sch x y crs rng).ops = (batchCommitG1Tr (F := F) x crs rng).ops ++ ((batchCommitG2Tr (F := F) y crs rng₁).ops ++ (s.proveTr sch x y cx cy crs rng₂).ops) := by
  have e1 : (batchCommitG1Tr (F := F) x crs rng).res = .ok (cx, rng₁) := Eq.trans (by simp) h1
  have e2 : (batchCommitG2Tr (F := F) y crs rng₁).res = .ok (cy, rng₂) := Eq.trans (by simp) h2
  rw [PPE.commitAndProveTr, ops_bind e1]
  show _ ++ (Tr.bind _ _).ops = _
  rw [ops_bind' e2]
  exact congrArg _ (congrArg _ (ops_pure _ _))

/-- C90: the operations of `commit_and_prove` of `MSMEG1`, a panic while proving included. -/
theorem C90_msmeg1_steps (sch : Nat → Scheduler) (s : MSMEG1 F G1) (x : List G1) (y : List F) (crs : CRS G1 G2 GT) (rng : ρ) {cx : Commit F G1} {cy : Commit F G2} {rng₁ rng₂ : ρ}
    (h1 : batchCommitG1 x crs rng = .ok (cx, rng₁)) (h2 : batchCommitScalarToB2 y crs rng₁ = .ok (cy, rng₂)) :
    (s.commitAndProveTr sch x y crs rng).ops = (batchCommitG1Tr (F := F) x crs rng).ops ++ ((batchCommitScalarToB2Tr y crs rng₁).ops ++ (s.proveTr sch x y cx cy crs rng₂).ops) := by
  have e1 : (batchCommitG1Tr (F := F) x crs rng).res = .ok (cx, rng₁) := Eq.trans (by simp) h1
  have e2 : (batchCommitScalarToB2Tr y crs rng₁).res = .ok (cy, rng₂) := Eq.trans (by simp) h2
  rw [MSMEG1.commitAndProveTr, ops_bind e1]
  show _ ++ (Tr.bind _ _).ops = _
  rw [ops_bind' e2]
  exact congrArg _ (congrArg _ (ops_pure _ _))

/-- C90: the operations of `commit_and_prove` of `MSMEG2`, a panic while proving included. -/
theorem C90_msmeg2_steps (sch : Nat → Scheduler) (s : MSMEG2 F G2) (x : List F) (y : List G2) (crs : CRS G1 G2 GT) (rng : ρ) {cx : Commit F G1} {cy : Commit F G2} {rng₁ rng₂ : ρ}
    (h1 : batchCommitScalarToB1 x crs rng = .ok (cx, rng₁)) (h2 : batchCommitG2 y crs rng₁ = .ok (cy, rng₂)) :
    (s.commitAndProveTr sch x y crs rng).ops = (batchCommitScalarToB1Tr x crs rng).ops ++ ((batchCommitG2Tr (F := F) y crs rng₁).ops ++ (s.proveTr sch x y cx cy crs rng₂).ops) := by
  have e1 : (batchCommitScalarToB1Tr x crs rng).res = .ok (cx, rng₁) := Eq.trans (by simp) h1
  have e2 : (batchCommitG2Tr (F := F) y crs rng₁).res = .ok (cy, rng₂) := Eq.trans (by simp) h2
  rw [MSMEG2.commitAndProveTr, ops_bind e1]
  show _ ++ (Tr.bind _ _).ops = _
  rw [ops_bind' e2]
  exact congrArg _ (congrArg _ (ops_pure _ _))

/-- C90: the operations of `commit_and_prove` of `QuadEqu`, a panic while proving included. -/
theorem C90_quad_steps (sch : Nat → Scheduler) (s : QuadEqu F) (x : List F) (y : List F) (crs : CRS G1 G2 GT) (rng : ρ) {cx : Commit F G1} {cy : Commit F G2} {rng₁ rng₂ : ρ}
    (h1 : batchCommitScalarToB1 x crs rng = .ok (cx, rng₁)) (h2 : batchCommitScalarToB2 y crs rng₁ = .ok (cy, rng₂)) :
    (s.commitAndProveTr sch x y crs rng).ops = (batchCommitScalarToB1Tr x crs rng).ops ++ ((batchCommitScalarToB2Tr y crs rng₁).ops ++ (s.proveTr sch x y cx cy crs rng₂).ops) := by
  have e1 : (batchCommitScalarToB1Tr x crs rng).res = .ok (cx, rng₁) := Eq.trans (by simp) h1
  have e2 : (batchCommitScalarToB2Tr y crs rng₁).res = .ok (cy, rng₂) := Eq.trans (by simp) h2
  rw [QuadEqu.commitAndProveTr, ops_bind e1]
  show _ ++ (Tr.bind _ _).ops = _
  rw [ops_bind' e2]
  exact congrArg _ (congrArg _ (ops_pure _ _))

end

/-! ## The operations do not depend on the values -/

section
variable {ρ ρ' : Type} [Rng ρ F G1 G2] [Rng ρ' F' G1' G2'] {crs : CRS G1 G2 GT} {crs' : CRS G1' G2' GT'}

/-- Key generation always executes these operations. -/
theorem C90_generate [AddCommGroup GT] [Module F GT] (e : G1 →ₗ[F] G2 →ₗ[F] GT) (rng : ρ) :
    (generateCrsTr (F := F) e rng).ops =
      [.rand .G1, .rand .G2, .rand .F, .rand .F, .rand .F, .rand .F, .mul .G1, .mul .G2, .mul .G1, .mul .G2,
        .mul .G1, .sub .G1, .mul .G2, .sub .G2, .pairing 1] := rfl

theorem C90_commit_G1 (x : G1) (x' : G1') (h : crs.SameSizes crs') (rng : ρ) (rng' : ρ') :
    SameRun (commitG1Tr (F := F) x crs rng) (commitG1Tr (F := F') x' crs' rng') :=
  (relTr_commitG1 x x' (sh1_iff.2 h.1) rng rng').sameRun

theorem C90_batch_commit_G1 (x : List G1) (x' : List G1') (hx : x.length = x'.length) (h : crs.SameSizes crs') (rng : ρ) (rng' : ρ') :
    SameRun (batchCommitG1Tr (F := F) x crs rng) (batchCommitG1Tr (F := F') x' crs' rng') :=
  (relTr_batchCommitG1 (sh1_iff.2 h.1) (sh1_iff.2 hx) rng rng').sameRun

theorem C90_commit_G2 (x : G2) (x' : G2') (h : crs.SameSizes crs') (rng : ρ) (rng' : ρ') :
    SameRun (commitG2Tr (F := F) x crs rng) (commitG2Tr (F := F') x' crs' rng') :=
  (relTr_commitG2 x x' (sh1_iff.2 h.2) rng rng').sameRun

theorem C90_batch_commit_G2 (x : List G2) (x' : List G2') (hx : x.length = x'.length) (h : crs.SameSizes crs') (rng : ρ) (rng' : ρ') :
    SameRun (batchCommitG2Tr (F := F) x crs rng) (batchCommitG2Tr (F := F') x' crs' rng') :=
  (relTr_batchCommitG2 (sh1_iff.2 h.2) (sh1_iff.2 hx) rng rng').sameRun

theorem C90_commit_scalar_B1 (x : F) (x' : F') (h : crs.SameSizes crs') (rng : ρ) (rng' : ρ') :
    SameRun (commitScalarToB1Tr x crs rng) (commitScalarToB1Tr x' crs' rng') :=
  (relTr_commitScalarToB1 x x' (sh1_iff.2 h.1) rng rng').sameRun

theorem C90_batch_commit_scalar_B1 (x : List F) (x' : List F') (hx : x.length = x'.length) (h : crs.SameSizes crs') (rng : ρ) (rng' : ρ') :
    SameRun (batchCommitScalarToB1Tr x crs rng) (batchCommitScalarToB1Tr x' crs' rng') :=
  (relTr_batchCommitScalarToB1 (sh1_iff.2 h.1) (sh1_iff.2 hx) rng rng').sameRun

theorem C90_commit_scalar_B2 (x : F) (x' : F') (h : crs.SameSizes crs') (rng : ρ) (rng' : ρ') :
    SameRun (commitScalarToB2Tr x crs rng) (commitScalarToB2Tr x' crs' rng') :=
  (relTr_commitScalarToB2 x x' (sh1_iff.2 h.2) rng rng').sameRun

theorem C90_batch_commit_scalar_B2 (x : List F) (x' : List F') (hx : x.length = x'.length) (h : crs.SameSizes crs') (rng : ρ) (rng' : ρ') :
    SameRun (batchCommitScalarToB2Tr x crs rng) (batchCommitScalarToB2Tr x' crs' rng') :=
  (relTr_batchCommitScalarToB2 (sh1_iff.2 h.2) (sh1_iff.2 hx) rng rng').sameRun

theorem C90_ppe_prove {s : PPE F G1 G2 GT} {s' : PPE F' G1' G2' GT'} (hs : s.SameSizes s') {x : List G1} {x' : List G1'} (hx : x.length = x'.length)
    {y : List G2} {y' : List G2'} (hy : y.length = y'.length) {cx : Commit F G1} {cx' : Commit F' G1'} (hcx : cx.SameSizes cx')
    {cy : Commit F G2} {cy' : Commit F' G2'} (hcy : cy.SameSizes cy') (h : crs.SameSizes crs') (sch : Nat → Scheduler)
    (rng : ρ) (rng' : ρ') : SameRun (s.proveTr sch x y cx cy crs rng) (s'.proveTr sch x' y' cx' cy' crs' rng') :=
  (relTr_PPE_prove (sh1_iff.2 hs.1) (sh1_iff.2 hs.2.1) hs.2.2.sh2 (sh1_iff.2 hx) (sh1_iff.2 hy) hcx.2.sh2 hcy.2.sh2
    (sh1_iff.2 h.1) (sh1_iff.2 h.2) sch rng rng').sameRun

theorem C90_ppe_commit_and_prove {s : PPE F G1 G2 GT} {s' : PPE F' G1' G2' GT'} (hs : s.SameSizes s') {x : List G1} {x' : List G1'}
    (hx : x.length = x'.length) {y : List G2} {y' : List G2'} (hy : y.length = y'.length) (h : crs.SameSizes crs')
    (sch : Nat → Scheduler) (rng : ρ) (rng' : ρ') :
    SameRun (s.commitAndProveTr sch x y crs rng) (s'.commitAndProveTr sch x' y' crs' rng') :=
  (relTr_PPE_commitAndProve (sh1_iff.2 hs.1) (sh1_iff.2 hs.2.1) hs.2.2.sh2 (sh1_iff.2 hx) (sh1_iff.2 hy)
    (sh1_iff.2 h.1) (sh1_iff.2 h.2) sch rng rng').sameRun

theorem C90_ppe_verify [AddCommGroup GT] [Module F GT] [DecidableEq GT] [AddCommGroup GT'] [Module F' GT'] [DecidableEq GT']
    (e : G1 →ₗ[F] G2 →ₗ[F] GT) (e' : G1' →ₗ[F'] G2' →ₗ[F'] GT') {s : PPE F G1 G2 GT} {s' : PPE F' G1' G2' GT'} (hs : s.SameSizes s')
    {pf : CProof F G1 G2} {pf' : CProof F' G1' G2'} (hp : pf.SameSizes pf') (h : crs.SameSizes crs') (sch : Scheduler) :
    SameButCompare (s.verifyTr e sch pf crs) (s'.verifyTr e' sch pf' crs') :=
  (relCmp_PPE_verify e e' (sh1_iff.2 hs.1) (sh1_iff.2 hs.2.1) hs.2.2.sh2 (sh1_iff.2 hp.1) (sh1_iff.2 hp.2.1) (relPfs hp.2.2)
    (sh1_iff.2 h.1) (sh1_iff.2 h.2) sch).same

theorem C90_msmeg1_prove {s : MSMEG1 F G1} {s' : MSMEG1 F' G1'} (hs : s.SameSizes s') {x : List G1} {x' : List G1'} (hx : x.length = x'.length)
    {y : List F} {y' : List F'} (hy : y.length = y'.length) {cx : Commit F G1} {cx' : Commit F' G1'} (hcx : cx.SameSizes cx')
    {cy : Commit F G2} {cy' : Commit F' G2'} (hcy : cy.SameSizes cy') (h : crs.SameSizes crs') (sch : Nat → Scheduler)
    (rng : ρ) (rng' : ρ') : SameRun (s.proveTr sch x y cx cy crs rng) (s'.proveTr sch x' y' cx' cy' crs' rng') :=
  (relTr_MSMEG1_prove (sh1_iff.2 hs.1) (sh1_iff.2 hs.2.1) hs.2.2.sh2 (sh1_iff.2 hx) (sh1_iff.2 hy) hcx.2.sh2 hcy.2.sh2
    (sh1_iff.2 h.1) (sh1_iff.2 h.2) sch rng rng').sameRun

theorem C90_msmeg1_commit_and_prove {s : MSMEG1 F G1} {s' : MSMEG1 F' G1'} (hs : s.SameSizes s') {x : List G1} {x' : List G1'}
    (hx : x.length = x'.length) {y : List F} {y' : List F'} (hy : y.length = y'.length) (h : crs.SameSizes crs')
    (sch : Nat → Scheduler) (rng : ρ) (rng' : ρ') :
    SameRun (s.commitAndProveTr sch x y crs rng) (s'.commitAndProveTr sch x' y' crs' rng') :=
  (relTr_MSMEG1_commitAndProve (sh1_iff.2 hs.1) (sh1_iff.2 hs.2.1) hs.2.2.sh2 (sh1_iff.2 hx) (sh1_iff.2 hy)
    (sh1_iff.2 h.1) (sh1_iff.2 h.2) sch rng rng').sameRun

theorem C90_msmeg1_verify [AddCommGroup GT] [Module F GT] [DecidableEq GT] [AddCommGroup GT'] [Module F' GT'] [DecidableEq GT']
    (e : G1 →ₗ[F] G2 →ₗ[F] GT) (e' : G1' →ₗ[F'] G2' →ₗ[F'] GT') {s : MSMEG1 F G1} {s' : MSMEG1 F' G1'} (hs : s.SameSizes s')
    {pf : CProof F G1 G2} {pf' : CProof F' G1' G2'} (hp : pf.SameSizes pf') (h : crs.SameSizes crs') (sch : Scheduler) :
    SameButCompare (s.verifyTr e sch pf crs) (s'.verifyTr e' sch pf' crs') :=
  (relCmp_MSMEG1_verify e e' (sh1_iff.2 hs.1) (sh1_iff.2 hs.2.1) hs.2.2.sh2 (sh1_iff.2 hp.1) (sh1_iff.2 hp.2.1) (relPfs hp.2.2)
    (sh1_iff.2 h.1) (sh1_iff.2 h.2) sch).same

theorem C90_msmeg2_prove {s : MSMEG2 F G2} {s' : MSMEG2 F' G2'} (hs : s.SameSizes s') {x : List F} {x' : List F'} (hx : x.length = x'.length)
    {y : List G2} {y' : List G2'} (hy : y.length = y'.length) {cx : Commit F G1} {cx' : Commit F' G1'} (hcx : cx.SameSizes cx')
    {cy : Commit F G2} {cy' : Commit F' G2'} (hcy : cy.SameSizes cy') (h : crs.SameSizes crs') (sch : Nat → Scheduler)
    (rng : ρ) (rng' : ρ') : SameRun (s.proveTr sch x y cx cy crs rng) (s'.proveTr sch x' y' cx' cy' crs' rng') :=
  (relTr_MSMEG2_prove (sh1_iff.2 hs.1) (sh1_iff.2 hs.2.1) hs.2.2.sh2 (sh1_iff.2 hx) (sh1_iff.2 hy) hcx.2.sh2 hcy.2.sh2
    (sh1_iff.2 h.1) (sh1_iff.2 h.2) sch rng rng').sameRun

theorem C90_msmeg2_commit_and_prove {s : MSMEG2 F G2} {s' : MSMEG2 F' G2'} (hs : s.SameSizes s') {x : List F} {x' : List F'}
    (hx : x.length = x'.length) {y : List G2} {y' : List G2'} (hy : y.length = y'.length) (h : crs.SameSizes crs')
    (sch : Nat → Scheduler) (rng : ρ) (rng' : ρ') :
    SameRun (s.commitAndProveTr sch x y crs rng) (s'.commitAndProveTr sch x' y' crs' rng') :=
  (relTr_MSMEG2_commitAndProve (sh1_iff.2 hs.1) (sh1_iff.2 hs.2.1) hs.2.2.sh2 (sh1_iff.2 hx) (sh1_iff.2 hy)
    (sh1_iff.2 h.1) (sh1_iff.2 h.2) sch rng rng').sameRun

theorem C90_msmeg2_verify [AddCommGroup GT] [Module F GT] [DecidableEq GT] [AddCommGroup GT'] [Module F' GT'] [DecidableEq GT']
    (e : G1 →ₗ[F] G2 →ₗ[F] GT) (e' : G1' →ₗ[F'] G2' →ₗ[F'] GT') {s : MSMEG2 F G2} {s' : MSMEG2 F' G2'} (hs : s.SameSizes s')
    {pf : CProof F G1 G2} {pf' : CProof F' G1' G2'} (hp : pf.SameSizes pf') (h : crs.SameSizes crs') (sch : Scheduler) :
    SameButCompare (s.verifyTr e sch pf crs) (s'.verifyTr e' sch pf' crs') :=
  (relCmp_MSMEG2_verify e e' (sh1_iff.2 hs.1) (sh1_iff.2 hs.2.1) hs.2.2.sh2 (sh1_iff.2 hp.1) (sh1_iff.2 hp.2.1) (relPfs hp.2.2)
    (sh1_iff.2 h.1) (sh1_iff.2 h.2) sch).same

theorem C90_quad_prove {s : QuadEqu F} {s' : QuadEqu F'} (hs : s.SameSizes s') {x : List F} {x' : List F'} (hx : x.length = x'.length)
    {y : List F} {y' : List F'} (hy : y.length = y'.length) {cx : Commit F G1} {cx' : Commit F' G1'} (hcx : cx.SameSizes cx')
    {cy : Commit F G2} {cy' : Commit F' G2'} (hcy : cy.SameSizes cy') (h : crs.SameSizes crs') (sch : Nat → Scheduler)
    (rng : ρ) (rng' : ρ') : SameRun (s.proveTr sch x y cx cy crs rng) (s'.proveTr sch x' y' cx' cy' crs' rng') :=
  (relTr_QuadEqu_prove (sh1_iff.2 hs.1) (sh1_iff.2 hs.2.1) hs.2.2.sh2 (sh1_iff.2 hx) (sh1_iff.2 hy) hcx.2.sh2 hcy.2.sh2
    (sh1_iff.2 h.1) (sh1_iff.2 h.2) sch rng rng').sameRun

theorem C90_quad_commit_and_prove {s : QuadEqu F} {s' : QuadEqu F'} (hs : s.SameSizes s') {x : List F} {x' : List F'}
    (hx : x.length = x'.length) {y : List F} {y' : List F'} (hy : y.length = y'.length) (h : crs.SameSizes crs')
    (sch : Nat → Scheduler) (rng : ρ) (rng' : ρ') :
    SameRun (s.commitAndProveTr sch x y crs rng) (s'.commitAndProveTr sch x' y' crs' rng') :=
  (relTr_QuadEqu_commitAndProve (sh1_iff.2 hs.1) (sh1_iff.2 hs.2.1) hs.2.2.sh2 (sh1_iff.2 hx) (sh1_iff.2 hy)
    (sh1_iff.2 h.1) (sh1_iff.2 h.2) sch rng rng').sameRun

theorem C90_quad_verify [AddCommGroup GT] [Module F GT] [DecidableEq GT] [AddCommGroup GT'] [Module F' GT'] [DecidableEq GT']
    (e : G1 →ₗ[F] G2 →ₗ[F] GT) (e' : G1' →ₗ[F'] G2' →ₗ[F'] GT') {s : QuadEqu F} {s' : QuadEqu F'} (hs : s.SameSizes s')
    {pf : CProof F G1 G2} {pf' : CProof F' G1' G2'} (hp : pf.SameSizes pf') (h : crs.SameSizes crs') (sch : Scheduler) :
    SameButCompare (s.verifyTr e sch pf crs) (s'.verifyTr e' sch pf' crs') :=
  (relCmp_QuadEqu_verify e e' (sh1_iff.2 hs.1) (sh1_iff.2 hs.2.1) hs.2.2.sh2 (sh1_iff.2 hp.1) (sh1_iff.2 hp.2.1) (relPfs hp.2.2)
    (sh1_iff.2 h.1) (sh1_iff.2 h.2) sch).same

end

/-! ## Examples -/

namespace Ex

/-- A true and a false statement, other values, a CRS of the other kind, other randomness: the same operations. -/
example : SameRun (ppe7.commitAndProveTr (fun _ => seqSched) [2] [3, 4] crs7 (1 : Nat))
    ((⟨[0, 0], [0], [[0, 0]], 0⟩ : PPE K K K K).commitAndProveTr (fun _ => seqSched) [0] [0, 0] sim7 (5 : Nat)) :=
  C90_ppe_commit_and_prove (F := K) (F' := K) (ρ := Nat) (ρ' := Nat) (crs := crs7) (crs' := sim7) (s := ppe7) (s' := ⟨[0, 0], [0], [[0, 0]], 0⟩)
    (x := [2]) (x' := [0]) (y := [3, 4]) (y' := [0, 0]) ⟨rfl, rfl, rfl⟩ rfl rfl ⟨rfl, rfl⟩ (fun _ => seqSched) 1 5

/-- Which are not none. -/
example : (quad7.commitAndProveTr (fun _ => seqSched) [2] [3, 4] crs7 (1 : Nat)).ops.length = 110 := by decide

/-- Proving panics for lack of a constant; what was done before is in the record, more than the commitments. -/
example : (⟨[1], [5], [[1, 2]], 1⟩ : QuadEqu K).commitAndProveTr (fun _ => seqSched) [2] [3, 4] crs7 (1 : Nat) |>.res.toOption.isNone := by decide
example : (batchCommitScalarToB1Tr ([2] : List K) crs7 (1 : Nat)).ops.length + (batchCommitScalarToB2Tr ([3, 4] : List K) crs7 (1 : Nat)).ops.length <
    ((⟨[1], [5], [[1, 2]], 1⟩ : QuadEqu K).commitAndProveTr (fun _ => seqSched) [2] [3, 4] crs7 (1 : Nat)).ops.length := by decide
example : ∃ cx rng₁, batchCommitScalarToB1 ([2] : List K) crs7 (1 : Nat) = .ok (cx, rng₁) ∧ ∃ cy rng₂, batchCommitScalarToB2 ([3, 4] : List K) crs7 rng₁ = .ok (cy, rng₂) := ⟨_, _, rfl, _, _, rfl⟩

/-- Verification of a valid and of an invalid message differ in the comparisons only, and do differ. -/
example :
    let good : CProof K K K := ⟨⟨[⟨0, 2⟩], []⟩, ⟨[⟨0, 3⟩, ⟨0, 4⟩], []⟩, [⟨[0, 0], [0, 0], .PairingProduct, []⟩]⟩
    let bad : CProof K K K := ⟨⟨[⟨1, 2⟩], []⟩, ⟨[⟨1, 3⟩, ⟨0, 4⟩], []⟩, [⟨[0, 0], [0, 0], .PairingProduct, []⟩]⟩
    (ppe7.verifyTr e7 seqSched good crs7).res = .ok true ∧ (ppe7.verifyTr e7 seqSched bad crs7).res = .ok false ∧
      SameButCompare (ppe7.verifyTr e7 seqSched good crs7) (ppe7.verifyTr e7 seqSched bad crs7) ∧
      (ppe7.verifyTr e7 seqSched good crs7).ops ≠ (ppe7.verifyTr e7 seqSched bad crs7).ops :=
  ⟨by decide, by decide, C90_ppe_verify (crs := crs7) (crs' := crs7) (s := ppe7) (s' := ppe7) e7 e7 ⟨rfl, rfl, rfl⟩
    (by exact ⟨rfl, rfl, rfl⟩) ⟨rfl, rfl⟩ seqSched, by decide⟩

/-! ### Instances: the other operations -/

section
variable (sch : Nat → Scheduler) (s : Scheduler)

theorem crs7_sizes : crs7.SameSizes sim7 := ⟨rfl, rfl⟩

example := C90_commit_G1 (F := K) (F' := K) (ρ := Nat) (ρ' := Nat) (crs := crs7) (crs' := sim7) 2 3 crs7_sizes 1 5
example := C90_batch_commit_G1 (F := K) (F' := K) (ρ := Nat) (ρ' := Nat) (crs := crs7) (crs' := sim7) [2, 3] [0, 0] rfl crs7_sizes 1 5
example := C90_commit_G2 (F := K) (F' := K) (ρ := Nat) (ρ' := Nat) (crs := crs7) (crs' := sim7) 2 3 crs7_sizes 1 5
example := C90_batch_commit_G2 (F := K) (F' := K) (ρ := Nat) (ρ' := Nat) (crs := crs7) (crs' := sim7) [2, 3] [0, 0] rfl crs7_sizes 1 5
example := C90_commit_scalar_B1 (F := K) (F' := K) (ρ := Nat) (ρ' := Nat) (crs := crs7) (crs' := sim7) 2 3 crs7_sizes 1 5
example := C90_batch_commit_scalar_B1 (F := K) (F' := K) (ρ := Nat) (ρ' := Nat) (crs := crs7) (crs' := sim7) [2, 3] [0, 0] rfl crs7_sizes 1 5
example := C90_commit_scalar_B2 (F := K) (F' := K) (ρ := Nat) (ρ' := Nat) (crs := crs7) (crs' := sim7) 2 3 crs7_sizes 1 5
example := C90_batch_commit_scalar_B2 (F := K) (F' := K) (ρ := Nat) (ρ' := Nat) (crs := crs7) (crs' := sim7) [2, 3] [0, 0] rfl crs7_sizes 1 5
example := C90_ppe_prove (F := K) (F' := K) (ρ := Nat) (ρ' := Nat) (crs := crs7) (crs' := sim7) (s := ppe7) (s' := ⟨[0, 0], [0], [[0, 0]], 0⟩)
  (x := [2]) (x' := [0]) (y := [3, 4]) (y' := [0, 0])
  (cx := ppe7_msg.xcoms) (cx' := ppe7_msg.xcoms) (cy := ppe7_msg.ycoms) (cy' := ppe7_msg.ycoms) ⟨rfl, rfl, rfl⟩ rfl rfl ⟨rfl, rfl⟩ ⟨rfl, rfl⟩ crs7_sizes sch 1 5
example := C90_msmeg1_prove (F := K) (F' := K) (ρ := Nat) (ρ' := Nat) (crs := crs7) (crs' := sim7) (s := msm1_7) (s' := ⟨[0, 0], [0], [[0, 0]], 0⟩)
  (x := [2]) (x' := [0]) (y := [3, 4]) (y' := [0, 0])
  (cx := msm1_7_msg.xcoms) (cx' := msm1_7_msg.xcoms) (cy := msm1_7_msg.ycoms) (cy' := msm1_7_msg.ycoms) ⟨rfl, rfl, rfl⟩ rfl rfl ⟨rfl, rfl⟩ ⟨rfl, rfl⟩ crs7_sizes sch 1 5
example := C90_msmeg1_commit_and_prove (F := K) (F' := K) (ρ := Nat) (ρ' := Nat) (crs := crs7) (crs' := sim7) (s := msm1_7) (s' := ⟨[0, 0], [0], [[0, 0]], 0⟩)
  (x := [2]) (x' := [0]) (y := [3, 4]) (y' := [0, 0]) ⟨rfl, rfl, rfl⟩ rfl rfl crs7_sizes sch 1 5
example := C90_msmeg1_verify (crs := crs7) (crs' := sim7) e7 e7 (s := msm1_7) (s' := ⟨[0, 0], [0], [[0, 0]], 0⟩) ⟨rfl, rfl, rfl⟩
  (pf := msm1_7_msg) (pf' := msm1_7_msg) ⟨rfl, rfl, by simp [msm1_7_msg]⟩ crs7_sizes s
example := C90_msmeg2_prove (F := K) (F' := K) (ρ := Nat) (ρ' := Nat) (crs := crs7) (crs' := sim7) (s := msm2_7) (s' := ⟨[0, 0], [0], [[0, 0]], 0⟩)
  (x := [2]) (x' := [0]) (y := [3, 4]) (y' := [0, 0])
  (cx := msm2_7_msg.xcoms) (cx' := msm2_7_msg.xcoms) (cy := msm2_7_msg.ycoms) (cy' := msm2_7_msg.ycoms) ⟨rfl, rfl, rfl⟩ rfl rfl ⟨rfl, rfl⟩ ⟨rfl, rfl⟩ crs7_sizes sch 1 5
example := C90_msmeg2_commit_and_prove (F := K) (F' := K) (ρ := Nat) (ρ' := Nat) (crs := crs7) (crs' := sim7) (s := msm2_7) (s' := ⟨[0, 0], [0], [[0, 0]], 0⟩)
  (x := [2]) (x' := [0]) (y := [3, 4]) (y' := [0, 0]) ⟨rfl, rfl, rfl⟩ rfl rfl crs7_sizes sch 1 5
example := C90_msmeg2_verify (crs := crs7) (crs' := sim7) e7 e7 (s := msm2_7) (s' := ⟨[0, 0], [0], [[0, 0]], 0⟩) ⟨rfl, rfl, rfl⟩
  (pf := msm2_7_msg) (pf' := msm2_7_msg) ⟨rfl, rfl, by simp [msm2_7_msg]⟩ crs7_sizes s
example := C90_quad_prove (F := K) (F' := K) (ρ := Nat) (ρ' := Nat) (crs := crs7) (crs' := sim7) (s := quad7) (s' := ⟨[0, 0], [0], [[0, 0]], 0⟩)
  (x := [2]) (x' := [0]) (y := [3, 4]) (y' := [0, 0])
  (cx := quad7_msg.xcoms) (cx' := quad7_msg.xcoms) (cy := quad7_msg.ycoms) (cy' := quad7_msg.ycoms) ⟨rfl, rfl, rfl⟩ rfl rfl ⟨rfl, rfl⟩ ⟨rfl, rfl⟩ crs7_sizes sch 1 5
example := C90_quad_commit_and_prove (F := K) (F' := K) (ρ := Nat) (ρ' := Nat) (crs := crs7) (crs' := sim7) (s := quad7) (s' := ⟨[0, 0], [0], [[0, 0]], 0⟩)
  (x := [2]) (x' := [0]) (y := [3, 4]) (y' := [0, 0]) ⟨rfl, rfl, rfl⟩ rfl rfl crs7_sizes sch 1 5
example := C90_quad_verify (crs := crs7) (crs' := sim7) e7 e7 (s := quad7) (s' := ⟨[0, 0], [0], [[0, 0]], 0⟩) ⟨rfl, rfl, rfl⟩
  (pf := quad7_msg) (pf' := quad7_msg) ⟨rfl, rfl, by simp [quad7_msg]⟩ crs7_sizes s

end

end Ex

end GS
