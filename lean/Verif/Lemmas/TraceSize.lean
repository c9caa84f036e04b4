import Verif.Lemmas.TraceRel
import Verif.Spec.Trace

/-! # Commitments and proofs: the trace depends on the sizes only -/

set_option linter.unusedSectionVars false
set_option linter.unusedTactic false
set_option linter.unreachableTactic false

namespace GS

section
variable {α β : Type}

theorem SameShape.sh2 {M : Matrix α} {N : Matrix β} (h : SameShape M N) : Sh2 M N := sh2_iff.2 h

theorem RelTr.sameRun {R : α → β → Prop} {a : Tr α} {b : Tr β} (h : RelTr R a b) : SameRun a b := by
  obtain ⟨h1, h2⟩ := h
  refine ⟨h1, fun p => ?_⟩
  cases ha : a.res <;> cases hb : b.res <;> simp_all [RelRes]

end

/-- Equality of two lengths. -/
macro "rlen" : tactic => `(tactic| first | rfl | assumption | exact List.Forall₂.length_eq (by assumption) | exact sh1_iff.1 (by assumption))

syntax "rsolve" : tactic
macro_rules | `(tactic| rsolve) => `(tactic| first
  | assumption
  | exact sh1_iff.2 (by assumption)
  | exact sh1_map (by rsolve)
  | exact sh2_col (by rsolve)
  | exact sh2_iff.2 rfl
  | exact relTr_lift (rel_transpose (by rsolve))
  | exact relTr_lift (rel_colVecToVec (by rsolve))
  | exact relTr_leftMul _ _ _ (by rsolve) (by rsolve)
  | exact relTr_rightMul _ _ (by rsolve) (by rsolve)
  | exact relTr_matAdd _ (by rsolve) (by rsolve)
  | exact relTr_fAdd (by rsolve) (by rsolve)
  | exact relTr_fNeg (by rsolve)
  | exact relTr_comAdd _ _ _ _ _
  | exact relTr_comMul _ _ _ _ _
  | exact relTr_lift (rel_idx (by assumption) _)
  | exact relTr_lift (rel_idx2 (by rsolve) _ _)
  | exact relTr_lift (rel_assert (by rlen) (by rlen)))

/-- One statement of a `do` block. -/
macro "rstep" : tactic => `(tactic| (refine relTr_bind (by rsolve) ?_; intro _ _ _))

section
variable {F G1 G2 GT F' G1' G2' GT' : Type} [Field F] [AddCommGroup G1] [Module F G1] [AddCommGroup G2] [Module F G2]
  [Field F'] [AddCommGroup G1'] [Module F' G1'] [AddCommGroup G2'] [Module F' G2']
  {ρ ρ' : Type} [Rng ρ F G1 G2] [Rng ρ' F' G1' G2']

theorem relTr_rand (rng : ρ) (rng' : ρ') :
    RelTr (fun _ _ => True) (randFTr (F := F) G1 G2 rng) (randFTr (F := F') G1' G2' rng') := relTr_op trivial

theorem relTr_draw2 (n : Nat) (rng : ρ) (rng' : ρ') :
    RelTr (fun x y => Sh2 x.1 y.1) (drawRows2Tr (randFTr (F := F) G1 G2) n rng) (drawRows2Tr (randFTr (F := F') G1' G2') n rng') := by
  induction n generalizing rng rng' with
  | zero => exact relTr_pure .nil
  | succ n ih =>
    exact relTr_bind (relTr_rand rng rng') fun x y _ => relTr_bind (relTr_rand x.2 y.2) fun x y _ =>
      relTr_bind (ih x.2 y.2) fun x y h => relTr_pure (.cons (.cons trivial (.cons trivial .nil)) h)

theorem relTr_draw1 (n : Nat) (rng : ρ) (rng' : ρ') :
    RelTr (fun x y => Sh2 x.1 y.1) (drawRows1Tr (randFTr (F := F) G1 G2) n rng) (drawRows1Tr (randFTr (F := F') G1' G2') n rng') := by
  induction n generalizing rng rng' with
  | zero => exact relTr_pure .nil
  | succ n ih =>
    exact relTr_bind (relTr_rand rng rng') fun x y _ =>
      relTr_bind (ih x.2 y.2) fun x y h => relTr_pure (.cons (.cons trivial .nil) h)

/-- Commitments to as many values, with randomness of the same shape. -/
def RelCom {G G' : Type} (x : Commit F G × ρ) (y : Commit F' G' × ρ') : Prop := Sh1 x.1.coms y.1.coms ∧ Sh2 x.1.rand y.1.rand

variable {crs : CRS G1 G2 GT} {crs' : CRS G1' G2' GT'}

theorem relTr_slm1 (x : F) (x' : F') (h : Sh1 crs.u crs'.u) :
    RelTr (fun _ _ => True) (Com1.scalarLinearMapTr x crs) (Com1.scalarLinearMapTr x' crs') := by
  unfold Com1.scalarLinearMapTr
  rstep; rstep
  exact relTr_comMul _ _ _ _ _

theorem relTr_bslm1 {x : List F} {x' : List F'} (h : Sh1 crs.u crs'.u) (hx : Sh1 x x') :
    RelTr Sh1 (Com1.batchScalarLinearMapTr x crs) (Com1.batchScalarLinearMapTr x' crs') :=
  relTr_collect hx fun a b _ => relTr_slm1 a b h

theorem relTr_commitG1 (x : G1) (x' : G1') (h : Sh1 crs.u crs'.u) (rng : ρ) (rng' : ρ') :
    RelTr RelCom (commitG1Tr (F := F) x crs rng) (commitG1Tr (F := F') x' crs' rng') := by
  unfold commitG1Tr
  refine relTr_bind (relTr_rand rng rng') ?_; rintro ⟨_, rng⟩ ⟨_, rng'⟩ _
  refine relTr_bind (relTr_rand rng rng') ?_; rintro ⟨_, rng⟩ ⟨_, rng'⟩ _
  rstep; rstep; rstep; rstep; rstep; rstep
  exact relTr_pure ⟨sh1_iff.2 rfl, sh2_iff.2 rfl⟩

theorem relTr_batchCommitG1 {x : List G1} {x' : List G1'} (h : Sh1 crs.u crs'.u) (hx : Sh1 x x') (rng : ρ) (rng' : ρ') :
    RelTr RelCom (batchCommitG1Tr (F := F) x crs rng) (batchCommitG1Tr (F := F') x' crs' rng') := by
  unfold batchCommitG1Tr
  dsimp only
  rw [sh1_iff.1 hx]
  refine relTr_bind (relTr_draw2 _ rng rng') ?_; rintro ⟨_, rng⟩ ⟨_, rng'⟩ hR
  dsimp only at hR
  refine relTr_bind (relTr_leftMul _ _ _ (sh2_col h) hR) ?_; intro _ _ h1
  refine relTr_bind (relTr_matAdd _ (sh2_col (sh1_map hx)) h1) ?_; intro _ _ h2
  rstep
  exact relTr_pure ⟨by assumption, hR⟩

theorem relTr_commitScalarToB1 (x : F) (x' : F') (h : Sh1 crs.u crs'.u) (rng : ρ) (rng' : ρ') :
    RelTr RelCom (commitScalarToB1Tr x crs rng) (commitScalarToB1Tr x' crs' rng') := by
  unfold commitScalarToB1Tr
  refine relTr_bind (relTr_rand rng rng') ?_; rintro ⟨_, rng⟩ ⟨_, rng'⟩ _
  refine relTr_bind (relTr_slm1 _ _ h) ?_; intro _ _ _
  rstep; rstep; rstep
  exact relTr_pure ⟨sh1_iff.2 rfl, sh2_iff.2 rfl⟩

theorem relTr_batchCommitScalarToB1 {x : List F} {x' : List F'} (h : Sh1 crs.u crs'.u) (hx : Sh1 x x') (rng : ρ) (rng' : ρ') :
    RelTr RelCom (batchCommitScalarToB1Tr x crs rng) (batchCommitScalarToB1Tr x' crs' rng') := by
  unfold batchCommitScalarToB1Tr
  dsimp only
  rw [sh1_iff.1 hx]
  refine relTr_bind (relTr_draw1 _ rng rng') ?_; rintro ⟨_, rng⟩ ⟨_, rng'⟩ hR
  dsimp only at hR
  refine relTr_bind (relTr_bslm1 h hx) ?_; intro _ _ h1
  rstep
  rename_i h2
  refine relTr_bind (R := Sh1) (relTr_collect h2 fun _ _ _ => relTr_bind (relTr_lift (rel_idx2 (sh2_col h) 0 0)) fun _ _ _ =>
    relTr_comMul _ _ _ _ _) ?_; intro _ _ h3
  refine relTr_bind (relTr_matAdd _ (sh2_col h1) (sh2_col h3)) ?_; intro _ _ h4
  rstep
  exact relTr_pure ⟨by assumption, hR⟩

theorem relTr_slm2 (x : F) (x' : F') (h : Sh1 crs.v crs'.v) :
    RelTr (fun _ _ => True) (Com2.scalarLinearMapTr x crs) (Com2.scalarLinearMapTr x' crs') := by
  unfold Com2.scalarLinearMapTr
  rstep; rstep
  exact relTr_comMul _ _ _ _ _

theorem relTr_bslm2 {x : List F} {x' : List F'} (h : Sh1 crs.v crs'.v) (hx : Sh1 x x') :
    RelTr Sh1 (Com2.batchScalarLinearMapTr x crs) (Com2.batchScalarLinearMapTr x' crs') :=
  relTr_collect hx fun a b _ => relTr_slm2 a b h

theorem relTr_commitG2 (x : G2) (x' : G2') (h : Sh1 crs.v crs'.v) (rng : ρ) (rng' : ρ') :
    RelTr RelCom (commitG2Tr (F := F) x crs rng) (commitG2Tr (F := F') x' crs' rng') := by
  unfold commitG2Tr
  refine relTr_bind (relTr_rand rng rng') ?_; rintro ⟨_, rng⟩ ⟨_, rng'⟩ _
  refine relTr_bind (relTr_rand rng rng') ?_; rintro ⟨_, rng⟩ ⟨_, rng'⟩ _
  rstep; rstep; rstep; rstep; rstep; rstep
  exact relTr_pure ⟨sh1_iff.2 rfl, sh2_iff.2 rfl⟩

theorem relTr_batchCommitG2 {x : List G2} {x' : List G2'} (h : Sh1 crs.v crs'.v) (hx : Sh1 x x') (rng : ρ) (rng' : ρ') :
    RelTr RelCom (batchCommitG2Tr (F := F) x crs rng) (batchCommitG2Tr (F := F') x' crs' rng') := by
  unfold batchCommitG2Tr
  dsimp only
  rw [sh1_iff.1 hx]
  refine relTr_bind (relTr_draw2 _ rng rng') ?_; rintro ⟨_, rng⟩ ⟨_, rng'⟩ hR
  dsimp only at hR
  refine relTr_bind (relTr_leftMul _ _ _ (sh2_col h) hR) ?_; intro _ _ h1
  refine relTr_bind (relTr_matAdd _ (sh2_col (sh1_map hx)) h1) ?_; intro _ _ h2
  rstep
  exact relTr_pure ⟨by assumption, hR⟩

theorem relTr_commitScalarToB2 (x : F) (x' : F') (h : Sh1 crs.v crs'.v) (rng : ρ) (rng' : ρ') :
    RelTr RelCom (commitScalarToB2Tr x crs rng) (commitScalarToB2Tr x' crs' rng') := by
  unfold commitScalarToB2Tr
  refine relTr_bind (relTr_rand rng rng') ?_; rintro ⟨_, rng⟩ ⟨_, rng'⟩ _
  refine relTr_bind (relTr_slm2 _ _ h) ?_; intro _ _ _
  rstep; rstep; rstep
  exact relTr_pure ⟨sh1_iff.2 rfl, sh2_iff.2 rfl⟩

theorem relTr_batchCommitScalarToB2 {x : List F} {x' : List F'} (h : Sh1 crs.v crs'.v) (hx : Sh1 x x') (rng : ρ) (rng' : ρ') :
    RelTr RelCom (batchCommitScalarToB2Tr x crs rng) (batchCommitScalarToB2Tr x' crs' rng') := by
  unfold batchCommitScalarToB2Tr
  dsimp only
  rw [sh1_iff.1 hx]
  refine relTr_bind (relTr_draw1 _ rng rng') ?_; rintro ⟨_, rng⟩ ⟨_, rng'⟩ hR
  dsimp only at hR
  refine relTr_bind (relTr_bslm2 h hx) ?_; intro _ _ h1
  rstep
  rename_i h2
  refine relTr_bind (R := Sh1) (relTr_collect h2 fun _ _ _ => relTr_bind (relTr_lift (rel_idx2 (sh2_col h) 0 0)) fun _ _ _ =>
    relTr_comMul _ _ _ _ _) ?_; intro _ _ h3
  refine relTr_bind (relTr_matAdd _ (sh2_col h1) (sh2_col h3)) ?_; intro _ _ h4
  rstep
  exact relTr_pure ⟨by assumption, hR⟩

theorem relTr_PPE_prove {s : PPE F G1 G2 GT} {s' : PPE F' G1' G2' GT'} {x : List G1} {x' : List G1'} {y : List G2} {y' : List G2'}
    {cx : Commit F G1} {cx' : Commit F' G1'} {cy : Commit F G2} {cy' : Commit F' G2'}
    (ha : Sh1 s.a_consts s'.a_consts) (hb : Sh1 s.b_consts s'.b_consts) (hg : Sh2 s.gamma s'.gamma)
    (hx : Sh1 x x') (hy : Sh1 y y') (hcx : Sh2 cx.rand cx'.rand) (hcy : Sh2 cy.rand cy'.rand)
    (hu : Sh1 crs.u crs'.u) (hv : Sh1 crs.v crs'.v) (sch : Nat → Scheduler) (rng : ρ) (rng' : ρ') :
    RelTr (fun _ _ => True) (s.proveTr sch x y cx cy crs rng) (s'.proveTr sch x' y' cx' cy' crs' rng') := by
  unfold PPE.proveTr
  repeat rstep
  refine relTr_bind (relTr_rand rng rng') ?_; rintro ⟨_, rng⟩ ⟨_, rng'⟩ _
  refine relTr_bind (relTr_rand rng rng') ?_; rintro ⟨_, rng⟩ ⟨_, rng'⟩ _
  refine relTr_bind (relTr_rand rng rng') ?_; rintro ⟨_, rng⟩ ⟨_, rng'⟩ _
  refine relTr_bind (relTr_rand rng rng') ?_; rintro ⟨_, rng⟩ ⟨_, rng'⟩ _
  repeat (first | rstep | (refine relTr_bind (relTr_bslm1 hu (by rsolve)) ?_; intro _ _ _) | (refine relTr_bind (relTr_bslm2 hv (by rsolve)) ?_; intro _ _ _))
  exact relTr_pure trivial

theorem relTr_PPE_commitAndProve {s : PPE F G1 G2 GT} {s' : PPE F' G1' G2' GT'} {x : List G1} {x' : List G1'} {y : List G2} {y' : List G2'}
    (ha : Sh1 s.a_consts s'.a_consts) (hb : Sh1 s.b_consts s'.b_consts) (hg : Sh2 s.gamma s'.gamma)
    (hx : Sh1 x x') (hy : Sh1 y y')
    (hu : Sh1 crs.u crs'.u) (hv : Sh1 crs.v crs'.v) (sch : Nat → Scheduler) (rng : ρ) (rng' : ρ') :
    RelTr (fun _ _ => True) (s.commitAndProveTr sch x y crs rng) (s'.commitAndProveTr sch x' y' crs' rng') := by
  refine relTr_bind (relTr_batchCommitG1 hu hx rng rng') ?_; rintro ⟨_, rng⟩ ⟨_, rng'⟩ h1
  refine relTr_bind (relTr_batchCommitG2 hv hy rng rng') ?_; rintro ⟨_, rng⟩ ⟨_, rng'⟩ h2
  exact relTr_bind (relTr_PPE_prove ha hb hg hx hy h1.2 h2.2 hu hv sch rng rng') fun _ _ _ => relTr_pure trivial

theorem relTr_MSMEG1_prove {s : MSMEG1 F G1} {s' : MSMEG1 F' G1'} {x : List G1} {x' : List G1'} {y : List F} {y' : List F'}
    {cx : Commit F G1} {cx' : Commit F' G1'} {cy : Commit F G2} {cy' : Commit F' G2'}
    (ha : Sh1 s.a_consts s'.a_consts) (hb : Sh1 s.b_consts s'.b_consts) (hg : Sh2 s.gamma s'.gamma)
    (hx : Sh1 x x') (hy : Sh1 y y') (hcx : Sh2 cx.rand cx'.rand) (hcy : Sh2 cy.rand cy'.rand)
    (hu : Sh1 crs.u crs'.u) (hv : Sh1 crs.v crs'.v) (sch : Nat → Scheduler) (rng : ρ) (rng' : ρ') :
    RelTr (fun _ _ => True) (s.proveTr sch x y cx cy crs rng) (s'.proveTr sch x' y' cx' cy' crs' rng') := by
  unfold MSMEG1.proveTr
  repeat rstep
  refine relTr_bind (relTr_rand rng rng') ?_; rintro ⟨_, rng⟩ ⟨_, rng'⟩ _
  refine relTr_bind (relTr_rand rng rng') ?_; rintro ⟨_, rng⟩ ⟨_, rng'⟩ _
  repeat (first | rstep | (refine relTr_bind (relTr_bslm1 hu (by rsolve)) ?_; intro _ _ _) | (refine relTr_bind (relTr_bslm2 hv (by rsolve)) ?_; intro _ _ _))
  exact relTr_pure trivial

theorem relTr_MSMEG1_commitAndProve {s : MSMEG1 F G1} {s' : MSMEG1 F' G1'} {x : List G1} {x' : List G1'} {y : List F} {y' : List F'}
    (ha : Sh1 s.a_consts s'.a_consts) (hb : Sh1 s.b_consts s'.b_consts) (hg : Sh2 s.gamma s'.gamma)
    (hx : Sh1 x x') (hy : Sh1 y y')
    (hu : Sh1 crs.u crs'.u) (hv : Sh1 crs.v crs'.v) (sch : Nat → Scheduler) (rng : ρ) (rng' : ρ') :
    RelTr (fun _ _ => True) (s.commitAndProveTr sch x y crs rng) (s'.commitAndProveTr sch x' y' crs' rng') := by
  refine relTr_bind (relTr_batchCommitG1 hu hx rng rng') ?_; rintro ⟨_, rng⟩ ⟨_, rng'⟩ h1
  refine relTr_bind (relTr_batchCommitScalarToB2 hv hy rng rng') ?_; rintro ⟨_, rng⟩ ⟨_, rng'⟩ h2
  exact relTr_bind (relTr_MSMEG1_prove ha hb hg hx hy h1.2 h2.2 hu hv sch rng rng') fun _ _ _ => relTr_pure trivial

theorem relTr_MSMEG2_prove {s : MSMEG2 F G2} {s' : MSMEG2 F' G2'} {x : List F} {x' : List F'} {y : List G2} {y' : List G2'}
    {cx : Commit F G1} {cx' : Commit F' G1'} {cy : Commit F G2} {cy' : Commit F' G2'}
    (ha : Sh1 s.a_consts s'.a_consts) (hb : Sh1 s.b_consts s'.b_consts) (hg : Sh2 s.gamma s'.gamma)
    (hx : Sh1 x x') (hy : Sh1 y y') (hcx : Sh2 cx.rand cx'.rand) (hcy : Sh2 cy.rand cy'.rand)
    (hu : Sh1 crs.u crs'.u) (hv : Sh1 crs.v crs'.v) (sch : Nat → Scheduler) (rng : ρ) (rng' : ρ') :
    RelTr (fun _ _ => True) (s.proveTr sch x y cx cy crs rng) (s'.proveTr sch x' y' cx' cy' crs' rng') := by
  unfold MSMEG2.proveTr
  repeat rstep
  refine relTr_bind (relTr_rand rng rng') ?_; rintro ⟨_, rng⟩ ⟨_, rng'⟩ _
  refine relTr_bind (relTr_rand rng rng') ?_; rintro ⟨_, rng⟩ ⟨_, rng'⟩ _
  repeat (first | rstep | (refine relTr_bind (relTr_bslm1 hu (by rsolve)) ?_; intro _ _ _) | (refine relTr_bind (relTr_bslm2 hv (by rsolve)) ?_; intro _ _ _))
  exact relTr_pure trivial

theorem relTr_MSMEG2_commitAndProve {s : MSMEG2 F G2} {s' : MSMEG2 F' G2'} {x : List F} {x' : List F'} {y : List G2} {y' : List G2'}
    (ha : Sh1 s.a_consts s'.a_consts) (hb : Sh1 s.b_consts s'.b_consts) (hg : Sh2 s.gamma s'.gamma)
    (hx : Sh1 x x') (hy : Sh1 y y')
    (hu : Sh1 crs.u crs'.u) (hv : Sh1 crs.v crs'.v) (sch : Nat → Scheduler) (rng : ρ) (rng' : ρ') :
    RelTr (fun _ _ => True) (s.commitAndProveTr sch x y crs rng) (s'.commitAndProveTr sch x' y' crs' rng') := by
  refine relTr_bind (relTr_batchCommitScalarToB1 hu hx rng rng') ?_; rintro ⟨_, rng⟩ ⟨_, rng'⟩ h1
  refine relTr_bind (relTr_batchCommitG2 hv hy rng rng') ?_; rintro ⟨_, rng⟩ ⟨_, rng'⟩ h2
  exact relTr_bind (relTr_MSMEG2_prove ha hb hg hx hy h1.2 h2.2 hu hv sch rng rng') fun _ _ _ => relTr_pure trivial

theorem relTr_QuadEqu_prove {s : QuadEqu F} {s' : QuadEqu F'} {x : List F} {x' : List F'} {y : List F} {y' : List F'}
    {cx : Commit F G1} {cx' : Commit F' G1'} {cy : Commit F G2} {cy' : Commit F' G2'}
    (ha : Sh1 s.a_consts s'.a_consts) (hb : Sh1 s.b_consts s'.b_consts) (hg : Sh2 s.gamma s'.gamma)
    (hx : Sh1 x x') (hy : Sh1 y y') (hcx : Sh2 cx.rand cx'.rand) (hcy : Sh2 cy.rand cy'.rand)
    (hu : Sh1 crs.u crs'.u) (hv : Sh1 crs.v crs'.v) (sch : Nat → Scheduler) (rng : ρ) (rng' : ρ') :
    RelTr (fun _ _ => True) (s.proveTr sch x y cx cy crs rng) (s'.proveTr sch x' y' cx' cy' crs' rng') := by
  unfold QuadEqu.proveTr
  repeat rstep
  refine relTr_bind (relTr_rand rng rng') ?_; rintro ⟨_, rng⟩ ⟨_, rng'⟩ _
  repeat (first | rstep | (refine relTr_bind (relTr_bslm1 hu (by rsolve)) ?_; intro _ _ _) | (refine relTr_bind (relTr_bslm2 hv (by rsolve)) ?_; intro _ _ _))
  exact relTr_pure trivial

theorem relTr_QuadEqu_commitAndProve {s : QuadEqu F} {s' : QuadEqu F'} {x : List F} {x' : List F'} {y : List F} {y' : List F'}
    (ha : Sh1 s.a_consts s'.a_consts) (hb : Sh1 s.b_consts s'.b_consts) (hg : Sh2 s.gamma s'.gamma)
    (hx : Sh1 x x') (hy : Sh1 y y')
    (hu : Sh1 crs.u crs'.u) (hv : Sh1 crs.v crs'.v) (sch : Nat → Scheduler) (rng : ρ) (rng' : ρ') :
    RelTr (fun _ _ => True) (s.commitAndProveTr sch x y crs rng) (s'.commitAndProveTr sch x' y' crs' rng') := by
  refine relTr_bind (relTr_batchCommitScalarToB1 hu hx rng rng') ?_; rintro ⟨_, rng⟩ ⟨_, rng'⟩ h1
  refine relTr_bind (relTr_batchCommitScalarToB2 hv hy rng rng') ?_; rintro ⟨_, rng⟩ ⟨_, rng'⟩ h2
  exact relTr_bind (relTr_QuadEqu_prove ha hb hg hx hy h1.2 h2.2 hu hv sch rng rng') fun _ _ _ => relTr_pure trivial

end

section
variable {α β γ δ : Type} {R : α → β → Prop} {S : γ → δ → Prop}

/-- The same operations except for comparisons, and both return or both panic in the same way. -/
def RelCmp (S : γ → δ → Prop) (a : Tr γ) (b : Tr δ) : Prop :=
  a.ops.filter (· ≠ .eq .GT) = b.ops.filter (· ≠ .eq .GT) ∧ RelRes S a.res b.res

theorem relCmp_bind {a : Tr α} {b : Tr β} {f : α → Tr γ} {g : β → Tr δ} (h : RelTr R a b)
    (hf : ∀ x y, R x y → RelCmp S (f x) (g y)) : RelCmp S (a >>= f) (b >>= g) := by
  obtain ⟨l, r⟩ := a
  obtain ⟨l', r'⟩ := b
  obtain ⟨h1, h2⟩ := h
  dsimp only at h1 h2
  subst h1
  cases r <;> cases r'
  · exact ⟨rfl, h2⟩
  · exact h2.elim
  · exact h2.elim
  · obtain ⟨h3, h4⟩ := hf _ _ h2
    refine ⟨?_, h4⟩
    show (l ++ _).filter _ = (l ++ _).filter _
    rw [List.filter_append, List.filter_append, h3]

theorem RelCmp.same {a : Tr γ} {b : Tr δ} (h : RelCmp S a b) : SameButCompare a b := by
  obtain ⟨h1, h2⟩ := h
  refine ⟨h1, fun p => ?_⟩
  cases ha : a.res <;> cases hb : b.res <;> simp_all [RelRes]

end

section
variable {GT GT' : Type} [AddCommGroup GT] [AddCommGroup GT']

theorem relTr_tAdd (a b : ComT GT) (a' b' : ComT GT') : RelTr (fun _ _ => True) (ComT.addTr a b) (ComT.addTr a' b') := ⟨rfl, trivial⟩

theorem eqTr_filter [DecidableEq GT] (a b : ComT GT) : (ComT.eqTr a b).ops.filter (· ≠ .eq .GT) = [] := by
  unfold ComT.eqTr
  cases a.t0 == b.t0 <;> cases a.t1 == b.t1 <;> cases a.t2 == b.t2 <;> rfl

theorem relCmp_eq [DecidableEq GT] [DecidableEq GT'] (a b : ComT GT) (a' b' : ComT GT') :
    RelCmp (fun _ _ => True) (ComT.eqTr a b) (ComT.eqTr a' b') := by
  refine ⟨by rw [eqTr_filter, eqTr_filter], ?_⟩
  rw [ComT.eqTr_res, ComT.eqTr_res]
  exact trivial

end

section
variable {F G1 G2 GT F' G1' G2' GT' : Type} [Field F] [AddCommGroup G1] [Module F G1] [AddCommGroup G2] [Module F G2]
  [AddCommGroup GT] [Module F GT] [DecidableEq GT]
  [Field F'] [AddCommGroup G1'] [Module F' G1'] [AddCommGroup G2'] [Module F' G2'] [AddCommGroup GT'] [Module F' GT'] [DecidableEq GT']
  (e : G1 →ₗ[F] G2 →ₗ[F] GT) (e' : G1' →ₗ[F'] G2' →ₗ[F'] GT')

theorem relTr_pairing (x : Com G1) (y : Com G2) (x' : Com G1') (y' : Com G2') :
    RelTr (fun _ _ => True) (ComT.pairingTr e x y) (ComT.pairingTr e' x' y') := ⟨rfl, trivial⟩

theorem relTr_pairingSum {x : List (Com G1)} {y : List (Com G2)} {x' : List (Com G1')} {y' : List (Com G2')}
    (hx : Sh1 x x') (hy : Sh1 y y') : RelTr (fun _ _ => True) (ComT.pairingSumTr e x y) (ComT.pairingSumTr e' x' y') := by
  refine relTr_bind (relTr_lift (rel_assert hx.length_eq hy.length_eq)) fun _ _ _ => ⟨?_, trivial⟩
  show [Op.pairing _, Op.pairing _, Op.pairing _, Op.pairing _] = [Op.pairing _, Op.pairing _, Op.pairing _, Op.pairing _]
  simp [hx.length_eq]

theorem rel_assertT (a : EquType) {b b' : EquType} (h : b = b') : RelRes Eq (assertEq a b) (assertEq a b') := by
  subst h
  unfold assertEq
  split <;> exact rfl

/-- Proofs of the same sizes. -/
def RelPf (p : EquProof F G1 G2) (q : EquProof F' G1' G2') : Prop :=
  Sh1 p.pi q.pi ∧ Sh1 p.theta q.theta ∧ p.equ_type = q.equ_type

theorem relPfs {l : List (EquProof F G1 G2)} {l' : List (EquProof F' G1' G2')}
    (h : l.map (fun f => (f.pi.length, f.theta.length, f.equ_type)) = l'.map fun f => (f.pi.length, f.theta.length, f.equ_type)) :
    List.Forall₂ RelPf l l' := by
  induction l generalizing l' with
  | nil => cases l' <;> simp_all
  | cons p l ih =>
    cases l' with
    | nil => simp at h
    | cons q l' =>
      simp only [List.map_cons, List.cons.injEq, Prod.mk.injEq] at h
      exact .cons ⟨sh1_iff.2 h.1.1, sh1_iff.2 h.1.2.1, h.1.2.2⟩ (ih h.2)

variable {crs : CRS G1 G2 GT} {crs' : CRS G1' G2' GT'}

theorem relTr_linMSMEG1 (z : G1) (z' : G1') (hv : Sh1 crs.v crs'.v) :
    RelTr (fun _ _ => True) (ComT.linearMapMSMEG1Tr e z crs) (ComT.linearMapMSMEG1Tr e' z' crs') :=
  relTr_bind (relTr_slm2 _ _ hv) fun _ _ _ => relTr_pairing e e' _ _ _ _

theorem relTr_linMSMEG2 (z : G2) (z' : G2') (hu : Sh1 crs.u crs'.u) :
    RelTr (fun _ _ => True) (ComT.linearMapMSMEG2Tr e z crs) (ComT.linearMapMSMEG2Tr e' z' crs') :=
  relTr_bind (relTr_slm1 _ _ hu) fun _ _ _ => relTr_pairing e e' _ _ _ _

theorem relTr_linQuad (z : F) (z' : F') (hu : Sh1 crs.u crs'.u) (hv : Sh1 crs.v crs'.v) :
    RelTr (fun _ _ => True) (ComT.linearMapQuadTr e z crs) (ComT.linearMapQuadTr e' z' crs') :=
  relTr_bind (relTr_slm1 _ _ hu) fun _ _ _ => relTr_bind (relTr_slm2 _ _ hv) fun _ _ _ =>
    relTr_bind (relTr_comMul _ _ _ _ _) fun _ _ _ => relTr_pairing e e' _ _ _ _

/-- One call in `verify`. -/
macro "vprim" : tactic => `(tactic| first
  | rsolve
  | exact relTr_bslm1 (by assumption) (by rsolve)
  | exact relTr_bslm2 (by assumption) (by rsolve)
  | exact relTr_pairingSum _ _ (by rsolve) (by rsolve)
  | exact relTr_pairing _ _ _ _ _ _
  | exact relTr_linMSMEG1 _ _ _ _ (by assumption)
  | exact relTr_linMSMEG2 _ _ _ _ (by assumption)
  | exact relTr_linQuad _ _ _ _ (by assumption) (by assumption)
  | exact relTr_tAdd _ _ _ _)

/-- One statement of `verify`. -/
macro "vstep" : tactic => `(tactic| (refine relCmp_bind (by vprim) ?_; intro _ _ _))

theorem relCmp_PPE_verify {s : PPE F G1 G2 GT} {s' : PPE F' G1' G2' GT'} {pf : CProof F G1 G2} {pf' : CProof F' G1' G2'}
    (ha : Sh1 s.a_consts s'.a_consts) (hb : Sh1 s.b_consts s'.b_consts) (hg : Sh2 s.gamma s'.gamma)
    (hx : Sh1 pf.xcoms.coms pf'.xcoms.coms) (hy : Sh1 pf.ycoms.coms pf'.ycoms.coms) (hp : List.Forall₂ RelPf pf.equ_proofs pf'.equ_proofs)
    (hu : Sh1 crs.u crs'.u) (hv : Sh1 crs.v crs'.v) (sch : Scheduler) :
    RelCmp (fun _ _ => True) (s.verifyTr e sch pf crs) (s'.verifyTr e' sch pf' crs') := by
  unfold PPE.verifyTr
  refine relCmp_bind (relTr_lift (rel_assert hp.length_eq rfl)) fun _ _ _ => ?_
  refine relCmp_bind (relTr_lift (rel_idx hp 0)) ?_; rintro π π' ⟨h1, h2, h3⟩
  refine relCmp_bind (relTr_lift (rel_assertT _ h3)) fun _ _ _ => ?_
  repeat vstep
  exact relCmp_eq _ _ _ _

theorem relCmp_MSMEG1_verify {s : MSMEG1 F G1} {s' : MSMEG1 F' G1'} {pf : CProof F G1 G2} {pf' : CProof F' G1' G2'}
    (ha : Sh1 s.a_consts s'.a_consts) (hb : Sh1 s.b_consts s'.b_consts) (hg : Sh2 s.gamma s'.gamma)
    (hx : Sh1 pf.xcoms.coms pf'.xcoms.coms) (hy : Sh1 pf.ycoms.coms pf'.ycoms.coms) (hp : List.Forall₂ RelPf pf.equ_proofs pf'.equ_proofs)
    (hu : Sh1 crs.u crs'.u) (hv : Sh1 crs.v crs'.v) (sch : Scheduler) :
    RelCmp (fun _ _ => True) (s.verifyTr e sch pf crs) (s'.verifyTr e' sch pf' crs') := by
  unfold MSMEG1.verifyTr
  refine relCmp_bind (relTr_lift (rel_assert hp.length_eq rfl)) fun _ _ _ => ?_
  refine relCmp_bind (relTr_lift (rel_idx hp 0)) ?_; rintro π π' ⟨h1, h2, h3⟩
  refine relCmp_bind (relTr_lift (rel_assertT _ h3)) fun _ _ _ => ?_
  repeat vstep
  exact relCmp_eq _ _ _ _

theorem relCmp_MSMEG2_verify {s : MSMEG2 F G2} {s' : MSMEG2 F' G2'} {pf : CProof F G1 G2} {pf' : CProof F' G1' G2'}
    (ha : Sh1 s.a_consts s'.a_consts) (hb : Sh1 s.b_consts s'.b_consts) (hg : Sh2 s.gamma s'.gamma)
    (hx : Sh1 pf.xcoms.coms pf'.xcoms.coms) (hy : Sh1 pf.ycoms.coms pf'.ycoms.coms) (hp : List.Forall₂ RelPf pf.equ_proofs pf'.equ_proofs)
    (hu : Sh1 crs.u crs'.u) (hv : Sh1 crs.v crs'.v) (sch : Scheduler) :
    RelCmp (fun _ _ => True) (s.verifyTr e sch pf crs) (s'.verifyTr e' sch pf' crs') := by
  unfold MSMEG2.verifyTr
  refine relCmp_bind (relTr_lift (rel_assert hp.length_eq rfl)) fun _ _ _ => ?_
  refine relCmp_bind (relTr_lift (rel_idx hp 0)) ?_; rintro π π' ⟨h1, h2, h3⟩
  refine relCmp_bind (relTr_lift (rel_assertT _ h3)) fun _ _ _ => ?_
  repeat vstep
  exact relCmp_eq _ _ _ _

theorem relCmp_QuadEqu_verify {s : QuadEqu F} {s' : QuadEqu F'} {pf : CProof F G1 G2} {pf' : CProof F' G1' G2'}
    (ha : Sh1 s.a_consts s'.a_consts) (hb : Sh1 s.b_consts s'.b_consts) (hg : Sh2 s.gamma s'.gamma)
    (hx : Sh1 pf.xcoms.coms pf'.xcoms.coms) (hy : Sh1 pf.ycoms.coms pf'.ycoms.coms) (hp : List.Forall₂ RelPf pf.equ_proofs pf'.equ_proofs)
    (hu : Sh1 crs.u crs'.u) (hv : Sh1 crs.v crs'.v) (sch : Scheduler) :
    RelCmp (fun _ _ => True) (s.verifyTr e sch pf crs) (s'.verifyTr e' sch pf' crs') := by
  unfold QuadEqu.verifyTr
  refine relCmp_bind (relTr_lift (rel_assert hp.length_eq rfl)) fun _ _ _ => ?_
  refine relCmp_bind (relTr_lift (rel_idx hp 0)) ?_; rintro π π' ⟨h1, h2, h3⟩
  refine relCmp_bind (relTr_lift (rel_assertT _ h3)) fun _ _ _ => ?_
  repeat vstep
  exact relCmp_eq _ _ _ _

end

end GS
