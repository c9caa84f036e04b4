import Verif.Lemmas.TraceCost
import Verif.Spec.Equation
import Verif.Props.Example

/-!
# What commitments, proofs and verification cost

`w` assigns a price to every operation, so each theorem gives the number of operations of each kind at once.
-/

set_option linter.unusedSectionVars false
set_option linter.unusedTactic false
set_option linter.unreachableTactic false

namespace GS
variable {F G1 G2 GT : Type} [Field F] [AddCommGroup G1] [Module F G1] [AddCommGroup G2] [Module F G2] {w : Op → Nat}

section
variable {ρ : Type} [Rng ρ F G1 G2] {crs : CRS G1 G2 GT}

theorem costs_rand (rng : ρ) : Costs w (randFTr (F := F) G1 G2 rng) (w (.rand .F)) fun _ => True := costs_op trivial

theorem costs_draw2 (n : Nat) (rng : ρ) :
    Costs w (drawRows2Tr (randFTr (F := F) G1 G2) n rng) (n * (2 * w (.rand .F))) fun x => Rect n 2 x.1 := by
  induction n generalizing rng with
  | zero => exact (costs_pure ⟨rfl, by simp⟩).eq (by simp)
  | succ n ih =>
    refine (costs_bind (costs_rand rng) fun x _ => costs_bind (costs_rand x.2) fun y _ =>
      costs_bind (ih y.2) fun z hz => costs_pure ?_).eq (by ring)
    exact ⟨by simp [hz.1], by simpa using hz.2⟩

theorem costs_draw1 (n : Nat) (rng : ρ) :
    Costs w (drawRows1Tr (randFTr (F := F) G1 G2) n rng) (n * w (.rand .F)) fun x => Rect n 1 x.1 := by
  induction n generalizing rng with
  | zero => exact (costs_pure ⟨rfl, by simp⟩).eq (by simp)
  | succ n ih =>
    refine (costs_bind (costs_rand rng) fun x _ => costs_bind (ih x.2) fun z hz => costs_pure ?_).eq (by ring)
    exact ⟨by simp [hz.1], by simpa using hz.2⟩

theorem costs_slm1 (x : F) (h : crs.u.length = 2) :
    Costs w (Com1.scalarLinearMapTr x crs) (2 * w (.add .G1) + 2 * w (.mul .G1)) fun _ => True :=
  (costs_bind (costs_get h (by omega)) fun _ _ => costs_bind (costs_comAdd _ _ _) fun _ _ => costs_comMul _ _ _).eq (by ring)

theorem costs_bslm1 {n : Nat} {x : List F} (hx : x.length = n) (h : crs.u.length = 2) :
    Costs w (Com1.batchScalarLinearMapTr x crs) (n * (2 * w (.add .G1) + 2 * w (.mul .G1))) fun l => l.length = n := by
  obtain ⟨r, h1, h2, h3⟩ := costs_collect (w := w) (l := x) (f := fun a => Com1.scalarLinearMapTr a crs)
    (c := 2 * w (.add .G1) + 2 * w (.mul .G1)) (Q := fun _ => True) fun a _ => costs_slm1 a h
  exact ⟨r, h1, h2.1.trans hx, hx ▸ h3⟩

theorem costs_batchCommitG1 {n : Nat} {x : List G1} (hx : x.length = n) (hn : 0 < n) (h : crs.u.length = 2) (rng : ρ) :
    Costs w (batchCommitG1Tr (F := F) x crs rng) (2 * n * w (.rand .F) + 4 * n * w (.mul .G1) + 6 * n * w (.add .G1))
      fun c => Rect n 2 c.1.rand ∧ c.1.coms.length = n := by
  subst hx
  have hl : Rect x.length 1 (vecToColVec (Com1.batchLinearMap x)) := rect_col (by simp [Com1.batchLinearMap])
  refine (costs_bind (costs_draw2 _ rng) fun R hR => costs_bind (costs_leftMul _ _ _ (rect_col h) hR hn (by omega) (by omega)) fun _ h1 =>
    costs_bind (costs_matAdd _ hl h1 hn) fun _ h2 => costs_bind (costs_colVecToVec h2) fun c hc => costs_pure ⟨hR, hc⟩).eq (by ring)

theorem costs_batchCommitScalarToB1 {n : Nat} {x : List F} (hx : x.length = n) (hn : 0 < n) (h : crs.u.length = 2) (rng : ρ) :
    Costs w (batchCommitScalarToB1Tr x crs rng) (n * w (.rand .F) + 4 * n * w (.mul .G1) + 4 * n * w (.add .G1))
      fun c => Rect n 1 c.1.rand ∧ c.1.coms.length = n := by
  subst hx
  refine (costs_bind (costs_draw1 _ rng) fun R hR => costs_bind (costs_bslm1 rfl h) fun _ h1 => costs_bind (costs_colVecToVec hR) fun c hc =>
    costs_bind (P := fun l => l.length = x.length) (c := x.length * (2 * w (.mul .G1))) ?_ fun _ h3 =>
    costs_bind (costs_matAdd _ (rect_col h1) (rect_col h3) hn) fun _ h4 =>
    costs_bind (costs_colVecToVec h4) fun c hc => costs_pure ⟨hR, hc⟩).eq (by ring)
  obtain ⟨r, h5, h6, h7⟩ := costs_collect (w := w) (l := c) (c := 2 * w (.mul .G1)) (Q := fun _ => True)
    (f := fun sca => do Com.scalarMulTr .G1 (← idx2 (vecToColVec crs.u) 0 0) sca) fun a _ =>
      (costs_bind (costs_idx2 (rect_col h) (by omega) (by omega)) fun _ _ => costs_comMul _ _ _).eq (Nat.zero_add _)
  exact ⟨r, h5, h6.1.trans hc, hc ▸ h7⟩

theorem costs_slm2 (x : F) (h : crs.v.length = 2) :
    Costs w (Com2.scalarLinearMapTr x crs) (2 * w (.add .G2) + 2 * w (.mul .G2)) fun _ => True :=
  (costs_bind (costs_get h (by omega)) fun _ _ => costs_bind (costs_comAdd _ _ _) fun _ _ => costs_comMul _ _ _).eq (by ring)

theorem costs_bslm2 {n : Nat} {x : List F} (hx : x.length = n) (h : crs.v.length = 2) :
    Costs w (Com2.batchScalarLinearMapTr x crs) (n * (2 * w (.add .G2) + 2 * w (.mul .G2))) fun l => l.length = n := by
  obtain ⟨r, h1, h2, h3⟩ := costs_collect (w := w) (l := x) (f := fun a => Com2.scalarLinearMapTr a crs)
    (c := 2 * w (.add .G2) + 2 * w (.mul .G2)) (Q := fun _ => True) fun a _ => costs_slm2 a h
  exact ⟨r, h1, h2.1.trans hx, hx ▸ h3⟩

theorem costs_batchCommitG2 {n : Nat} {x : List G2} (hx : x.length = n) (hn : 0 < n) (h : crs.v.length = 2) (rng : ρ) :
    Costs w (batchCommitG2Tr (F := F) x crs rng) (2 * n * w (.rand .F) + 4 * n * w (.mul .G2) + 6 * n * w (.add .G2))
      fun c => Rect n 2 c.1.rand ∧ c.1.coms.length = n := by
  subst hx
  have hl : Rect x.length 1 (vecToColVec (Com2.batchLinearMap x)) := rect_col (by simp [Com2.batchLinearMap])
  refine (costs_bind (costs_draw2 _ rng) fun R hR => costs_bind (costs_leftMul _ _ _ (rect_col h) hR hn (by omega) (by omega)) fun _ h1 =>
    costs_bind (costs_matAdd _ hl h1 hn) fun _ h2 => costs_bind (costs_colVecToVec h2) fun c hc => costs_pure ⟨hR, hc⟩).eq (by ring)

theorem costs_batchCommitScalarToB2 {n : Nat} {x : List F} (hx : x.length = n) (hn : 0 < n) (h : crs.v.length = 2) (rng : ρ) :
    Costs w (batchCommitScalarToB2Tr x crs rng) (n * w (.rand .F) + 4 * n * w (.mul .G2) + 4 * n * w (.add .G2))
      fun c => Rect n 1 c.1.rand ∧ c.1.coms.length = n := by
  subst hx
  refine (costs_bind (costs_draw1 _ rng) fun R hR => costs_bind (costs_bslm2 rfl h) fun _ h1 => costs_bind (costs_colVecToVec hR) fun c hc =>
    costs_bind (P := fun l => l.length = x.length) (c := x.length * (2 * w (.mul .G2))) ?_ fun _ h3 =>
    costs_bind (costs_matAdd _ (rect_col h1) (rect_col h3) hn) fun _ h4 =>
    costs_bind (costs_colVecToVec h4) fun c hc => costs_pure ⟨hR, hc⟩).eq (by ring)
  obtain ⟨r, h5, h6, h7⟩ := costs_collect (w := w) (l := c) (c := 2 * w (.mul .G2)) (Q := fun _ => True)
    (f := fun sca => do Com.scalarMulTr .G2 (← idx2 (vecToColVec crs.v) 0 0) sca) fun a _ =>
      (costs_bind (costs_idx2 (rect_col h) (by omega) (by omega)) fun _ _ => costs_comMul _ _ _).eq (Nat.zero_add _)
  exact ⟨r, h5, h6.1.trans hc, hc ▸ h7⟩

/-! ## C92: the prover -/

theorem C92_batch_commit_G1 (w : Op → Nat) {n : Nat} {x : List G1} (hx : x.length = n) (hn : 0 < n) (h : crs.u.length = 2) (rng : ρ) :
    (batchCommitG1 (F := F) x crs rng).Ok ∧
      price w (batchCommitG1Tr (F := F) x crs rng) = 2 * n * w (.rand .F) + 4 * n * w (.mul .G1) + 6 * n * w (.add .G1) := by
  obtain ⟨c, h1, _, h2⟩ := costs_batchCommitG1 (F := F) (w := w) hx hn h rng
  exact ⟨⟨c, by rw [← batchCommitG1Tr_res]; exact h1⟩, h2⟩

theorem C92_commit_G1 (w : Op → Nat) (x : G1) (h : crs.u.length = 2) (rng : ρ) :
    (commitG1 (F := F) x crs rng).Ok ∧ price w (commitG1Tr (F := F) x crs rng) = 2 * w (.rand .F) + 4 * w (.mul .G1) + 4 * w (.add .G1) := by
  obtain ⟨c, h1, _, h2⟩ := ((costs_bind (costs_rand rng) fun R _ => costs_bind (costs_rand R.2) fun R _ =>
    costs_bind (costs_idx2 (rect_col h) (by omega) (by omega)) fun _ _ => costs_bind (costs_comMul _ _ _) fun _ _ =>
    costs_bind (costs_comAdd _ _ _) fun _ _ => costs_bind (costs_idx2 (rect_col h) (by omega) (by omega)) fun _ _ =>
    costs_bind (costs_comMul _ _ _) fun _ _ => costs_bind (costs_comAdd _ _ _) fun _ _ => costs_pure trivial :
      Costs w (commitG1Tr (F := F) x crs rng) _ fun _ => True)).eq
      (d := 2 * w (.rand .F) + 4 * w (.mul .G1) + 4 * w (.add .G1)) (by ring)
  exact ⟨⟨c, by rw [← commitG1Tr_res]; exact h1⟩, h2⟩

theorem C92_batch_commit_G2 (w : Op → Nat) {n : Nat} {x : List G2} (hx : x.length = n) (hn : 0 < n) (h : crs.v.length = 2) (rng : ρ) :
    (batchCommitG2 (F := F) x crs rng).Ok ∧
      price w (batchCommitG2Tr (F := F) x crs rng) = 2 * n * w (.rand .F) + 4 * n * w (.mul .G2) + 6 * n * w (.add .G2) := by
  obtain ⟨c, h1, _, h2⟩ := costs_batchCommitG2 (F := F) (w := w) hx hn h rng
  exact ⟨⟨c, by rw [← batchCommitG2Tr_res]; exact h1⟩, h2⟩

theorem C92_commit_G2 (w : Op → Nat) (x : G2) (h : crs.v.length = 2) (rng : ρ) :
    (commitG2 (F := F) x crs rng).Ok ∧ price w (commitG2Tr (F := F) x crs rng) = 2 * w (.rand .F) + 4 * w (.mul .G2) + 4 * w (.add .G2) := by
  obtain ⟨c, h1, _, h2⟩ := ((costs_bind (costs_rand rng) fun R _ => costs_bind (costs_rand R.2) fun R _ =>
    costs_bind (costs_idx2 (rect_col h) (by omega) (by omega)) fun _ _ => costs_bind (costs_comMul _ _ _) fun _ _ =>
    costs_bind (costs_comAdd _ _ _) fun _ _ => costs_bind (costs_idx2 (rect_col h) (by omega) (by omega)) fun _ _ =>
    costs_bind (costs_comMul _ _ _) fun _ _ => costs_bind (costs_comAdd _ _ _) fun _ _ => costs_pure trivial :
      Costs w (commitG2Tr (F := F) x crs rng) _ fun _ => True)).eq
      (d := 2 * w (.rand .F) + 4 * w (.mul .G2) + 4 * w (.add .G2)) (by ring)
  exact ⟨⟨c, by rw [← commitG2Tr_res]; exact h1⟩, h2⟩

theorem C92_batch_commit_scalar_B1 (w : Op → Nat) {n : Nat} {x : List F} (hx : x.length = n) (hn : 0 < n) (h : crs.u.length = 2) (rng : ρ) :
    (batchCommitScalarToB1 (F := F) x crs rng).Ok ∧
      price w (batchCommitScalarToB1Tr x crs rng) = n * w (.rand .F) + 4 * n * w (.mul .G1) + 4 * n * w (.add .G1) := by
  obtain ⟨c, h1, _, h2⟩ := costs_batchCommitScalarToB1 (F := F) (w := w) hx hn h rng
  exact ⟨⟨c, by rw [← batchCommitScalarToB1Tr_res]; exact h1⟩, h2⟩

theorem C92_commit_scalar_B1 (w : Op → Nat) (x : F) (h : crs.u.length = 2) (rng : ρ) :
    (commitScalarToB1 x crs rng).Ok ∧ price w (commitScalarToB1Tr x crs rng) = w (.rand .F) + 4 * w (.mul .G1) + 4 * w (.add .G1) := by
  obtain ⟨c, h1, _, h2⟩ := ((costs_bind (costs_rand rng) fun R _ => costs_bind (costs_slm1 x h) fun _ _ =>
    costs_bind (costs_idx2 (rect_col h) (by omega) (by omega)) fun _ _ => costs_bind (costs_comMul _ _ _) fun _ _ =>
    costs_bind (costs_comAdd _ _ _) fun _ _ => costs_pure trivial : Costs w (commitScalarToB1Tr x crs rng) _ fun _ => True)).eq
      (d := w (.rand .F) + 4 * w (.mul .G1) + 4 * w (.add .G1)) (by ring)
  exact ⟨⟨c, by rw [← commitScalarToB1Tr_res]; exact h1⟩, h2⟩

theorem C92_batch_commit_scalar_B2 (w : Op → Nat) {n : Nat} {x : List F} (hx : x.length = n) (hn : 0 < n) (h : crs.v.length = 2) (rng : ρ) :
    (batchCommitScalarToB2 (F := F) x crs rng).Ok ∧
      price w (batchCommitScalarToB2Tr x crs rng) = n * w (.rand .F) + 4 * n * w (.mul .G2) + 4 * n * w (.add .G2) := by
  obtain ⟨c, h1, _, h2⟩ := costs_batchCommitScalarToB2 (F := F) (w := w) hx hn h rng
  exact ⟨⟨c, by rw [← batchCommitScalarToB2Tr_res]; exact h1⟩, h2⟩

theorem C92_commit_scalar_B2 (w : Op → Nat) (x : F) (h : crs.v.length = 2) (rng : ρ) :
    (commitScalarToB2 x crs rng).Ok ∧ price w (commitScalarToB2Tr x crs rng) = w (.rand .F) + 4 * w (.mul .G2) + 4 * w (.add .G2) := by
  obtain ⟨c, h1, _, h2⟩ := ((costs_bind (costs_rand rng) fun R _ => costs_bind (costs_slm2 x h) fun _ _ =>
    costs_bind (costs_idx2 (rect_col h) (by omega) (by omega)) fun _ _ => costs_bind (costs_comMul _ _ _) fun _ _ =>
    costs_bind (costs_comAdd _ _ _) fun _ _ => costs_pure trivial : Costs w (commitScalarToB2Tr x crs rng) _ fun _ => True)).eq
      (d := w (.rand .F) + 4 * w (.mul .G2) + 4 * w (.add .G2)) (by ring)
  exact ⟨⟨c, by rw [← commitScalarToB2Tr_res]; exact h1⟩, h2⟩

theorem rect_lin1 {n : Nat} {x : List G1} (h : x.length = n) : Rect n 1 (vecToColVec (Com1.batchLinearMap x)) :=
  rect_col (by simpa [Com1.batchLinearMap] using h)

theorem rect_lin2 {n : Nat} {x : List G2} (h : x.length = n) : Rect n 1 (vecToColVec (Com2.batchLinearMap x)) :=
  rect_col (by simpa [Com2.batchLinearMap] using h)

theorem rect22 {α : Type} (a b c d : α) : Rect 2 2 [[a, b], [c, d]] := ⟨rfl, by simp⟩
theorem rect12 {α : Type} (a b : α) : Rect 1 2 [[a, b]] := ⟨rfl, by simp⟩
theorem rect21 {α : Type} (a b : α) : Rect 2 1 [[a], [b]] := ⟨rfl, by simp⟩
theorem rect11 {α : Type} (a : α) : Rect 1 1 [[a]] := ⟨rfl, by simp⟩

/-- The shape of a matrix. -/
macro "crect" : tactic => `(tactic| first
  | assumption
  | exact rect_col (by assumption)
  | exact rect_lin1 (by assumption)
  | exact rect_lin2 (by assumption)
  | exact rect22 _ _ _ _
  | exact rect12 _ _
  | exact rect21 _ _
  | exact rect11 _)

/-- One call. -/
macro "csolve" : tactic => `(tactic| first
  | exact costs_transpose (by crect) (by omega)
  | exact costs_colVecToVec (by crect)
  | exact costs_leftMul _ _ _ (by crect) (by crect) (by omega) (by omega) (by omega)
  | exact costs_rightMul _ _ (by crect) (by crect) (by omega) (by omega) (by omega)
  | exact costs_matAdd _ (by crect) (by crect) (by omega)
  | exact costs_fAdd (by crect) (by crect) (by omega)
  | exact costs_fNeg (by crect)
  | exact costs_bslm1 (by assumption) (by assumption)
  | exact costs_bslm2 (by assumption) (by assumption)
  | exact costs_idx (by assumption) (by omega)
  | exact costs_get (by assumption) (by omega)
  | exact costs_assert (by first | assumption | omega))

/-- One statement of a `do` block. -/
macro "cstep" : tactic => `(tactic| (apply costs_bind; (on_goal 1 => csolve); intro _ _))

theorem costs_PPE_prove {m n : Nat} (hm : 0 < m) (hn : 0 < n) {s : PPE F G1 G2 GT} {x : List G1} {y : List G2}
    {cx : Commit F G1} {cy : Commit F G2}
    (ha : s.a_consts.length = n) (hb : s.b_consts.length = m) (hg : Rect m n s.gamma)
    (hx : x.length = m) (hy : y.length = n) (hcx : Rect m 2 cx.rand) (hcy : Rect n 2 cy.rand)
    (hu : crs.u.length = 2) (hv : crs.v.length = 2) (sch : Nat → Scheduler) (rng : ρ) :
    Costs w (s.proveTr sch x y cx cy crs rng)
      (4 * w (.rand .F) + (6 * m * n + 4 * n) * w (.mul .F) + (6 * m * n + 4 * n + 4) * w (.add .F) + 4 * w (.neg .F) +
        (4 * m + 4 * n + 8) * w (.mul .G1) + (4 * m + 4 * n + 16) * w (.add .G1) +
        (4 * m + 4 * n + 8) * w (.mul .G2) + (4 * m + 4 * n + 16) * w (.add .G2)) fun _ => True := by
  have hxl := hcx.1
  have hyl := hcy.1
  have hgl := hg.1
  apply Costs.eq
  case h =>
    unfold PPE.proveTr
    repeat cstep
    apply costs_bind; (on_goal 1 => exact costs_rand _); rintro ⟨_, rng⟩ _
    apply costs_bind; (on_goal 1 => exact costs_rand _); rintro ⟨_, rng⟩ _
    apply costs_bind; (on_goal 1 => exact costs_rand _); rintro ⟨_, rng⟩ _
    apply costs_bind; (on_goal 1 => exact costs_rand _); rintro ⟨_, rng⟩ _
    repeat cstep
    exact costs_pure trivial
  case hc => ring

theorem costs_MSMEG1_prove {m n : Nat} (hm : 0 < m) (hn : 0 < n) {s : MSMEG1 F G1} {x : List G1} {y : List F}
    {cx : Commit F G1} {cy : Commit F G2}
    (ha : s.a_consts.length = n) (hb : s.b_consts.length = m) (hg : Rect m n s.gamma)
    (hx : x.length = m) (hy : y.length = n) (hcx : Rect m 2 cx.rand) (hcy : Rect n 1 cy.rand)
    (hu : crs.u.length = 2) (hv : crs.v.length = 2) (sch : Nat → Scheduler) (rng : ρ) :
    Costs w (s.proveTr sch x y cx cy crs rng)
      (2 * w (.rand .F) + (5 * m * n + 2 * n) * w (.mul .F) + (5 * m * n + 2 * n + 2) * w (.add .F) + 2 * w (.neg .F) +
        (2 * m + 2 * n + 4) * w (.mul .G1) + (2 * m + 2 * n + 8) * w (.add .G1) +
        (6 * m + 6 * n + 4) * w (.mul .G2) + (6 * m + 6 * n + 12) * w (.add .G2)) fun _ => True := by
  have hxl := hcx.1
  have hyl := hcy.1
  have hgl := hg.1
  apply Costs.eq
  case h =>
    unfold MSMEG1.proveTr
    repeat cstep
    apply costs_bind; (on_goal 1 => exact costs_rand _); rintro ⟨_, rng⟩ _
    apply costs_bind; (on_goal 1 => exact costs_rand _); rintro ⟨_, rng⟩ _
    repeat cstep
    exact costs_pure trivial
  case hc => ring

theorem costs_MSMEG2_prove {m n : Nat} (hm : 0 < m) (hn : 0 < n) {s : MSMEG2 F G2} {x : List F} {y : List G2}
    {cx : Commit F G1} {cy : Commit F G2}
    (ha : s.a_consts.length = n) (hb : s.b_consts.length = m) (hg : Rect m n s.gamma)
    (hx : x.length = m) (hy : y.length = n) (hcx : Rect m 1 cx.rand) (hcy : Rect n 2 cy.rand)
    (hu : crs.u.length = 2) (hv : crs.v.length = 2) (sch : Nat → Scheduler) (rng : ρ) :
    Costs w (s.proveTr sch x y cx cy crs rng)
      (2 * w (.rand .F) + (4 * m * n + 2 * n) * w (.mul .F) + (4 * m * n + 2 * n + 2) * w (.add .F) + 2 * w (.neg .F) +
        (6 * m + 6 * n + 4) * w (.mul .G1) + (6 * m + 6 * n + 12) * w (.add .G1) +
        (2 * m + 2 * n + 4) * w (.mul .G2) + (2 * m + 2 * n + 8) * w (.add .G2)) fun _ => True := by
  have hxl := hcx.1
  have hyl := hcy.1
  have hgl := hg.1
  apply Costs.eq
  case h =>
    unfold MSMEG2.proveTr
    repeat cstep
    apply costs_bind; (on_goal 1 => exact costs_rand _); rintro ⟨_, rng⟩ _
    apply costs_bind; (on_goal 1 => exact costs_rand _); rintro ⟨_, rng⟩ _
    repeat cstep
    exact costs_pure trivial
  case hc => ring

theorem costs_QuadEqu_prove {m n : Nat} (hm : 0 < m) (hn : 0 < n) {s : QuadEqu F} {x : List F} {y : List F}
    {cx : Commit F G1} {cy : Commit F G2}
    (ha : s.a_consts.length = n) (hb : s.b_consts.length = m) (hg : Rect m n s.gamma)
    (hx : x.length = m) (hy : y.length = n) (hcx : Rect m 1 cx.rand) (hcy : Rect n 1 cy.rand)
    (hu : crs.u.length = 2) (hv : crs.v.length = 2) (sch : Nat → Scheduler) (rng : ρ) :
    Costs w (s.proveTr sch x y cx cy crs rng)
      (1 * w (.rand .F) + (3 * m * n + 1 * n) * w (.mul .F) + (3 * m * n + 1 * n + 1) * w (.add .F) + 1 * w (.neg .F) +
        (4 * m + 4 * n + 2) * w (.mul .G1) + (4 * m + 4 * n + 6) * w (.add .G1) +
        (4 * m + 4 * n + 2) * w (.mul .G2) + (4 * m + 4 * n + 6) * w (.add .G2)) fun _ => True := by
  have hxl := hcx.1
  have hyl := hcy.1
  have hgl := hg.1
  apply Costs.eq
  case h =>
    unfold QuadEqu.proveTr
    repeat cstep
    apply costs_bind; (on_goal 1 => exact costs_rand _); rintro ⟨_, rng⟩ _
    repeat cstep
    exact costs_pure trivial
  case hc => ring

theorem C92_ppe_prove (w : Op → Nat) {m n : Nat} (hm : 0 < m) (hn : 0 < n) {s : PPE F G1 G2 GT} (h : s.Dims m n) {x : List G1} {y : List G2}
    {cx : Commit F G1} {cy : Commit F G2} (hx : x.length = m) (hy : y.length = n) (hcx : Rect m 2 cx.rand) (hcy : Rect n 2 cy.rand)
    (hu : crs.u.length = 2) (hv : crs.v.length = 2) (sch : Nat → Scheduler) (rng : ρ) :
    (s.prove sch x y cx cy crs rng).Ok ∧
      price w (s.proveTr sch x y cx cy crs rng) =
        4 * w (.rand .F) + (6 * m * n + 4 * n) * w (.mul .F) + (6 * m * n + 4 * n + 4) * w (.add .F) + 4 * w (.neg .F) +
        (4 * m + 4 * n + 8) * w (.mul .G1) + (4 * m + 4 * n + 16) * w (.add .G1) +
        (4 * m + 4 * n + 8) * w (.mul .G2) + (4 * m + 4 * n + 16) * w (.add .G2) := by
  obtain ⟨c, h1, _, h2⟩ := costs_PPE_prove (w := w) hm hn h.a h.b ⟨h.rows, h.cols⟩ hx hy hcx hcy hu hv sch rng
  exact ⟨⟨c, by rw [← PPE.proveTr_res]; exact h1⟩, h2⟩

theorem C92_ppe_commit_and_prove (w : Op → Nat) {m n : Nat} (hm : 0 < m) (hn : 0 < n) {s : PPE F G1 G2 GT} (h : s.Dims m n) {x : List G1}
    {y : List G2} (hx : x.length = m) (hy : y.length = n) (hu : crs.u.length = 2) (hv : crs.v.length = 2) (sch : Nat → Scheduler) (rng : ρ) :
    (s.commitAndProve sch x y crs rng).Ok ∧
      price w (s.commitAndProveTr sch x y crs rng) =
        (2 * m * w (.rand .F) + 4 * m * w (.mul .G1) + 6 * m * w (.add .G1)) +
        (2 * n * w (.rand .F) + 4 * n * w (.mul .G2) + 6 * n * w (.add .G2)) +
        (4 * w (.rand .F) + (6 * m * n + 4 * n) * w (.mul .F) + (6 * m * n + 4 * n + 4) * w (.add .F) + 4 * w (.neg .F) +
        (4 * m + 4 * n + 8) * w (.mul .G1) + (4 * m + 4 * n + 16) * w (.add .G1) +
        (4 * m + 4 * n + 8) * w (.mul .G2) + (4 * m + 4 * n + 16) * w (.add .G2)) := by
  have h : Costs w (s.commitAndProveTr sch x y crs rng) _ fun _ => True :=
    costs_bind (costs_batchCommitG1 (F := F) hx hm hu rng) fun c hc =>
    costs_bind (costs_batchCommitG2 (F := F) hy hn hv c.2) fun d hd =>
    costs_bind (costs_PPE_prove hm hn h.a h.b ⟨h.rows, h.cols⟩ hx hy hc.1 hd.1 hu hv sch d.2) fun _ _ => costs_pure trivial
  obtain ⟨c, h1, _, h2⟩ := h.eq (by rw [Nat.add_zero, ← Nat.add_assoc])
  exact ⟨⟨c, by rw [← PPE.commitAndProveTr_res]; exact h1⟩, h2⟩

theorem C92_msmeg1_prove (w : Op → Nat) {m n : Nat} (hm : 0 < m) (hn : 0 < n) {s : MSMEG1 F G1} (h : s.Dims m n) {x : List G1} {y : List F}
    {cx : Commit F G1} {cy : Commit F G2} (hx : x.length = m) (hy : y.length = n) (hcx : Rect m 2 cx.rand) (hcy : Rect n 1 cy.rand)
    (hu : crs.u.length = 2) (hv : crs.v.length = 2) (sch : Nat → Scheduler) (rng : ρ) :
    (s.prove sch x y cx cy crs rng).Ok ∧
      price w (s.proveTr sch x y cx cy crs rng) =
        2 * w (.rand .F) + (5 * m * n + 2 * n) * w (.mul .F) + (5 * m * n + 2 * n + 2) * w (.add .F) + 2 * w (.neg .F) +
        (2 * m + 2 * n + 4) * w (.mul .G1) + (2 * m + 2 * n + 8) * w (.add .G1) +
        (6 * m + 6 * n + 4) * w (.mul .G2) + (6 * m + 6 * n + 12) * w (.add .G2) := by
  obtain ⟨c, h1, _, h2⟩ := costs_MSMEG1_prove (w := w) hm hn h.a h.b ⟨h.rows, h.cols⟩ hx hy hcx hcy hu hv sch rng
  exact ⟨⟨c, by rw [← MSMEG1.proveTr_res]; exact h1⟩, h2⟩

theorem C92_msmeg1_commit_and_prove (w : Op → Nat) {m n : Nat} (hm : 0 < m) (hn : 0 < n) {s : MSMEG1 F G1} (h : s.Dims m n) {x : List G1}
    {y : List F} (hx : x.length = m) (hy : y.length = n) (hu : crs.u.length = 2) (hv : crs.v.length = 2) (sch : Nat → Scheduler) (rng : ρ) :
    (s.commitAndProve sch x y crs rng).Ok ∧
      price w (s.commitAndProveTr sch x y crs rng) =
        (2 * m * w (.rand .F) + 4 * m * w (.mul .G1) + 6 * m * w (.add .G1)) +
        (n * w (.rand .F) + 4 * n * w (.mul .G2) + 4 * n * w (.add .G2)) +
        (2 * w (.rand .F) + (5 * m * n + 2 * n) * w (.mul .F) + (5 * m * n + 2 * n + 2) * w (.add .F) + 2 * w (.neg .F) +
        (2 * m + 2 * n + 4) * w (.mul .G1) + (2 * m + 2 * n + 8) * w (.add .G1) +
        (6 * m + 6 * n + 4) * w (.mul .G2) + (6 * m + 6 * n + 12) * w (.add .G2)) := by
  have h : Costs w (s.commitAndProveTr sch x y crs rng) _ fun _ => True :=
    costs_bind (costs_batchCommitG1 (F := F) hx hm hu rng) fun c hc =>
    costs_bind (costs_batchCommitScalarToB2 (F := F) hy hn hv c.2) fun d hd =>
    costs_bind (costs_MSMEG1_prove hm hn h.a h.b ⟨h.rows, h.cols⟩ hx hy hc.1 hd.1 hu hv sch d.2) fun _ _ => costs_pure trivial
  obtain ⟨c, h1, _, h2⟩ := h.eq (by rw [Nat.add_zero, ← Nat.add_assoc])
  exact ⟨⟨c, by rw [← MSMEG1.commitAndProveTr_res]; exact h1⟩, h2⟩

theorem C92_msmeg2_prove (w : Op → Nat) {m n : Nat} (hm : 0 < m) (hn : 0 < n) {s : MSMEG2 F G2} (h : s.Dims m n) {x : List F} {y : List G2}
    {cx : Commit F G1} {cy : Commit F G2} (hx : x.length = m) (hy : y.length = n) (hcx : Rect m 1 cx.rand) (hcy : Rect n 2 cy.rand)
    (hu : crs.u.length = 2) (hv : crs.v.length = 2) (sch : Nat → Scheduler) (rng : ρ) :
    (s.prove sch x y cx cy crs rng).Ok ∧
      price w (s.proveTr sch x y cx cy crs rng) =
        2 * w (.rand .F) + (4 * m * n + 2 * n) * w (.mul .F) + (4 * m * n + 2 * n + 2) * w (.add .F) + 2 * w (.neg .F) +
        (6 * m + 6 * n + 4) * w (.mul .G1) + (6 * m + 6 * n + 12) * w (.add .G1) +
        (2 * m + 2 * n + 4) * w (.mul .G2) + (2 * m + 2 * n + 8) * w (.add .G2) := by
  obtain ⟨c, h1, _, h2⟩ := costs_MSMEG2_prove (w := w) hm hn h.a h.b ⟨h.rows, h.cols⟩ hx hy hcx hcy hu hv sch rng
  exact ⟨⟨c, by rw [← MSMEG2.proveTr_res]; exact h1⟩, h2⟩

theorem C92_msmeg2_commit_and_prove (w : Op → Nat) {m n : Nat} (hm : 0 < m) (hn : 0 < n) {s : MSMEG2 F G2} (h : s.Dims m n) {x : List F}
    {y : List G2} (hx : x.length = m) (hy : y.length = n) (hu : crs.u.length = 2) (hv : crs.v.length = 2) (sch : Nat → Scheduler) (rng : ρ) :
    (s.commitAndProve sch x y crs rng).Ok ∧
      price w (s.commitAndProveTr sch x y crs rng) =
        (m * w (.rand .F) + 4 * m * w (.mul .G1) + 4 * m * w (.add .G1)) +
        (2 * n * w (.rand .F) + 4 * n * w (.mul .G2) + 6 * n * w (.add .G2)) +
        (2 * w (.rand .F) + (4 * m * n + 2 * n) * w (.mul .F) + (4 * m * n + 2 * n + 2) * w (.add .F) + 2 * w (.neg .F) +
        (6 * m + 6 * n + 4) * w (.mul .G1) + (6 * m + 6 * n + 12) * w (.add .G1) +
        (2 * m + 2 * n + 4) * w (.mul .G2) + (2 * m + 2 * n + 8) * w (.add .G2)) := by
  have h : Costs w (s.commitAndProveTr sch x y crs rng) _ fun _ => True :=
    costs_bind (costs_batchCommitScalarToB1 (F := F) hx hm hu rng) fun c hc =>
    costs_bind (costs_batchCommitG2 (F := F) hy hn hv c.2) fun d hd =>
    costs_bind (costs_MSMEG2_prove hm hn h.a h.b ⟨h.rows, h.cols⟩ hx hy hc.1 hd.1 hu hv sch d.2) fun _ _ => costs_pure trivial
  obtain ⟨c, h1, _, h2⟩ := h.eq (by rw [Nat.add_zero, ← Nat.add_assoc])
  exact ⟨⟨c, by rw [← MSMEG2.commitAndProveTr_res]; exact h1⟩, h2⟩

theorem C92_quad_prove (w : Op → Nat) {m n : Nat} (hm : 0 < m) (hn : 0 < n) {s : QuadEqu F} (h : s.Dims m n) {x : List F} {y : List F}
    {cx : Commit F G1} {cy : Commit F G2} (hx : x.length = m) (hy : y.length = n) (hcx : Rect m 1 cx.rand) (hcy : Rect n 1 cy.rand)
    (hu : crs.u.length = 2) (hv : crs.v.length = 2) (sch : Nat → Scheduler) (rng : ρ) :
    (s.prove sch x y cx cy crs rng).Ok ∧
      price w (s.proveTr sch x y cx cy crs rng) =
        1 * w (.rand .F) + (3 * m * n + 1 * n) * w (.mul .F) + (3 * m * n + 1 * n + 1) * w (.add .F) + 1 * w (.neg .F) +
        (4 * m + 4 * n + 2) * w (.mul .G1) + (4 * m + 4 * n + 6) * w (.add .G1) +
        (4 * m + 4 * n + 2) * w (.mul .G2) + (4 * m + 4 * n + 6) * w (.add .G2) := by
  obtain ⟨c, h1, _, h2⟩ := costs_QuadEqu_prove (w := w) hm hn h.a h.b ⟨h.rows, h.cols⟩ hx hy hcx hcy hu hv sch rng
  exact ⟨⟨c, by rw [← QuadEqu.proveTr_res]; exact h1⟩, h2⟩

theorem C92_quad_commit_and_prove (w : Op → Nat) {m n : Nat} (hm : 0 < m) (hn : 0 < n) {s : QuadEqu F} (h : s.Dims m n) {x : List F}
    {y : List F} (hx : x.length = m) (hy : y.length = n) (hu : crs.u.length = 2) (hv : crs.v.length = 2) (sch : Nat → Scheduler) (rng : ρ) :
    (s.commitAndProve sch x y crs rng).Ok ∧
      price w (s.commitAndProveTr sch x y crs rng) =
        (m * w (.rand .F) + 4 * m * w (.mul .G1) + 4 * m * w (.add .G1)) +
        (n * w (.rand .F) + 4 * n * w (.mul .G2) + 4 * n * w (.add .G2)) +
        (1 * w (.rand .F) + (3 * m * n + 1 * n) * w (.mul .F) + (3 * m * n + 1 * n + 1) * w (.add .F) + 1 * w (.neg .F) +
        (4 * m + 4 * n + 2) * w (.mul .G1) + (4 * m + 4 * n + 6) * w (.add .G1) +
        (4 * m + 4 * n + 2) * w (.mul .G2) + (4 * m + 4 * n + 6) * w (.add .G2)) := by
  have h : Costs w (s.commitAndProveTr sch x y crs rng) _ fun _ => True :=
    costs_bind (costs_batchCommitScalarToB1 (F := F) hx hm hu rng) fun c hc =>
    costs_bind (costs_batchCommitScalarToB2 (F := F) hy hn hv c.2) fun d hd =>
    costs_bind (costs_QuadEqu_prove hm hn h.a h.b ⟨h.rows, h.cols⟩ hx hy hc.1 hd.1 hu hv sch d.2) fun _ _ => costs_pure trivial
  obtain ⟨c, h1, _, h2⟩ := h.eq (by rw [Nat.add_zero, ← Nat.add_assoc])
  exact ⟨⟨c, by rw [← QuadEqu.commitAndProveTr_res]; exact h1⟩, h2⟩

end

/-! ## C91: the verifier -/

section
variable [AddCommGroup GT] [Module F GT] {crs : CRS G1 G2 GT} {e : G1 →ₗ[F] G2 →ₗ[F] GT}

theorem costs_pairing (x : Com G1) (y : Com G2) : Costs w (ComT.pairingTr e x y) (4 * w (.pairing 1)) fun _ => True :=
  (costs_bind (costs_op (P := fun _ => True) trivial) fun _ _ => costs_bind (costs_op (P := fun _ => True) trivial) fun _ _ =>
    costs_bind (costs_op (P := fun _ => True) trivial) fun _ _ => costs_bind (costs_op (P := fun _ => True) trivial) fun _ _ =>
    costs_pure trivial).eq (by ring)

theorem costs_multi {n : Nat} {xs : List G1} (h : xs.length = n) (ys : List G2) :
    Costs w (ComT.multiPairingTr e xs ys) (w (.pairing n)) fun _ => True := h ▸ costs_op trivial

theorem costs_pairingSum {n : Nat} {xs : List (Com G1)} {ys : List (Com G2)} (hx : xs.length = n) (hy : ys.length = n) :
    Costs w (ComT.pairingSumTr e xs ys) (4 * w (.pairing n)) fun _ => True :=
  (costs_bind (costs_assert (hx.trans hy.symm)) fun _ _ => costs_bind (costs_multi (by simpa using hx) _) fun _ _ =>
    costs_bind (costs_multi (by simpa using hx) _) fun _ _ => costs_bind (costs_multi (by simpa using hx) _) fun _ _ =>
    costs_bind (costs_multi (by simpa using hx) _) fun _ _ => costs_pure trivial).eq (by ring)

/-- Whatever the lengths: on a mismatch nothing is paired. -/
theorem bounded_pairingSum {n : Nat} {xs : List (Com G1)} {ys : List (Com G2)} (h : xs.length = n ∨ ys.length = n) :
    Bounded w (ComT.pairingSumTr e xs ys) (4 * w (.pairing n)) fun _ => xs.length = n ∧ ys.length = n := by
  refine (bounded_bind bounded_assert fun _ he => (?_ : Bounded w _ (4 * w (.pairing n)) fun _ => xs.length = n ∧ ys.length = n)).le
    (Nat.zero_add _).le
  have hx : xs.length = n := by omega
  have hy : ys.length = n := by omega
  exact (bounded_bind (costs_multi (by simpa using hx) _).bounded fun _ _ =>
    bounded_bind (costs_multi (by simpa using hx) _).bounded fun _ _ => bounded_bind (costs_multi (by simpa using hx) _).bounded fun _ _ =>
    bounded_bind (costs_multi (by simpa using hx) _).bounded fun _ _ => bounded_pure ⟨hx, hy⟩).le (by omega)

theorem costs_addT (a b : ComT GT) : Costs w (ComT.addTr a b) (4 * w (.add .GT)) fun _ => True :=
  (costs_bind (costs_op (P := fun _ => True) trivial) fun _ _ => costs_bind (costs_op (P := fun _ => True) trivial) fun _ _ =>
    costs_bind (costs_op (P := fun _ => True) trivial) fun _ _ => costs_bind (costs_op (P := fun _ => True) trivial) fun _ _ =>
    costs_pure trivial).eq (by ring)

/-- The call returns for the price `c` and the price of one to four comparisons, four if it accepts. -/
def Decides (w : Op → Nat) (t : Tr Bool) (c : Nat) : Prop :=
  ∃ b k, t.res = .ok b ∧ price w t = c + k * w (.eq .GT) ∧ 1 ≤ k ∧ k ≤ 4 ∧ (b = true → k = 4)

theorem decides_bind {α : Type} {a : Tr α} {f : α → Tr Bool} {P : α → Prop} {c d : Nat} (h : Costs w a c P)
    (hf : ∀ x, P x → Decides w (f x) d) : Decides w (a >>= f) (c + d) := by
  obtain ⟨x, hx, hP, hc⟩ := h
  obtain ⟨b, k, h1, h2, h3⟩ := hf x hP
  refine ⟨b, k, ?_, by rw [price_bind_ok hx, hc, h2, Nat.add_assoc], h3⟩
  rw [Tr.bind_res, hx]
  exact h1

theorem Decides.eq {t : Tr Bool} {c d : Nat} (h : Decides w t c) (hc : c = d) : Decides w t d := hc ▸ h

theorem decides_eq [DecidableEq GT] (a b : ComT GT) : Decides w (ComT.eqTr a b) 0 := by
  by_cases h0 : a.t0 = b.t0
  · by_cases h1 : a.t1 = b.t1
    · by_cases h2 : a.t2 = b.t2
      · refine ⟨a.t3 == b.t3, 4, ?_, ?_, by omega, by omega, fun _ => rfl⟩ <;>
          simp [ComT.eqTr, Tr.op, bind, Tr.bind, price, h0, h1, h2]
        ring
      · refine ⟨false, 3, ?_, ?_, by omega, by omega, by simp⟩ <;>
          simp [ComT.eqTr, Tr.op, bind, Tr.bind, pure, price, h0, h1, h2]
        ring
    · refine ⟨false, 2, ?_, ?_, by omega, by omega, by simp⟩ <;>
        simp [ComT.eqTr, Tr.op, bind, Tr.bind, pure, price, h0, h1]
      ring
  · refine ⟨false, 1, ?_, ?_, by omega, by omega, by simp⟩ <;>
      simp [ComT.eqTr, Tr.op, bind, Tr.bind, pure, price, h0]

theorem bounded_eq [DecidableEq GT] (a b : ComT GT) : Bounded w (ComT.eqTr a b) (4 * w (.eq .GT)) fun _ => True := by
  obtain ⟨_, k, _, h, _, h4, _⟩ := decides_eq (w := w) a b
  exact ⟨by rw [h, Nat.zero_add]; exact Nat.mul_le_mul_right _ h4, fun _ _ => trivial⟩

/-- The number of comparisons does not depend on what they cost. -/
theorem decides_count {t : Tr Bool} {c : (Op → Nat) → Nat} (h : ∀ w, Decides w t (c w))
    (h0 : ∀ w w' : Op → Nat, (∀ o, o ≠ .eq .GT → w o = w' o) → c w = c w') (h1 : c (fun _ => 0) = 0) (w : Op → Nat) :
    (∃ b, t.res = .ok b ∧ (b = true → t.ops.count (.eq .GT) = 4)) ∧
      price w t = c w + t.ops.count (.eq .GT) * w (.eq .GT) ∧ 1 ≤ t.ops.count (.eq .GT) ∧ t.ops.count (.eq .GT) ≤ 4 := by
  have split : ∀ l : List Op, (l.map w).sum = (l.map fun o => if o = .eq .GT then 0 else w o).sum + l.count (.eq .GT) * w (.eq .GT) := by
    intro l
    induction l with
    | nil => simp
    | cons o l ih =>
      by_cases ho : o = .eq .GT
      · subst ho
        simp only [List.map_cons, List.sum_cons, ih, if_true, List.count_cons_self]
        ring
      · simp only [List.map_cons, List.sum_cons, ih, ho, if_false, List.count_cons_of_ne ho]
        ring
  have ones : ∀ l : List Op, (l.map fun o => if o = .eq .GT then 1 else 0).sum = l.count (.eq .GT) := by
    intro l
    induction l with
    | nil => rfl
    | cons o l ih =>
      by_cases ho : o = .eq .GT
      · subst ho
        simp only [List.map_cons, List.sum_cons, ih, if_true, List.count_cons_self]
        ring
      · simp only [List.map_cons, List.sum_cons, ih, ho, if_false, List.count_cons_of_ne ho]
        ring
  obtain ⟨b, k, hb, hp, hk⟩ := h fun o => if o = .eq .GT then 1 else 0
  rw [h0 _ (fun _ => 0) (fun o ho => by simp [ho]), h1] at hp
  have hk' : t.ops.count (.eq .GT) = k := by
    rw [← ones]
    simpa [price] using hp
  obtain ⟨_, k', _, hp', _⟩ := h fun o => if o = .eq .GT then 0 else w o
  rw [h0 _ w (fun o ho => by simp [ho])] at hp'
  rw [hk']
  refine ⟨⟨b, hb, hk.2.2⟩, ?_, hk.1, hk.2.1⟩
  have := split t.ops
  rw [hk'] at this
  unfold price at hp' ⊢
  rw [this, hp']
  simp

theorem bounded_slm1 (x : F) : Bounded w (Com1.scalarLinearMapTr x crs) (2 * w (.add .G1) + 2 * w (.mul .G1)) fun _ => True :=
  (bounded_bind (P := fun _ => True) (bounded_lift fun _ _ => trivial) fun _ _ => bounded_bind (costs_comAdd _ _ _).bounded fun _ _ =>
    (costs_comMul _ _ _).bounded).le (by omega)

theorem bounded_slm2 (x : F) : Bounded w (Com2.scalarLinearMapTr x crs) (2 * w (.add .G2) + 2 * w (.mul .G2)) fun _ => True :=
  (bounded_bind (P := fun _ => True) (bounded_lift fun _ _ => trivial) fun _ _ => bounded_bind (costs_comAdd _ _ _).bounded fun _ _ =>
    (costs_comMul _ _ _).bounded).le (by omega)

theorem bounded_bslm1 {n : Nat} {x : List F} (hx : x.length = n) :
    Bounded w (Com1.batchScalarLinearMapTr x crs) (n * (2 * w (.add .G1) + 2 * w (.mul .G1))) fun l => l.length = n :=
  by
  subst hx
  exact (bounded_collect fun a _ => bounded_slm1 a).imp fun _ h => h.1

theorem bounded_bslm2 {n : Nat} {x : List F} (hx : x.length = n) :
    Bounded w (Com2.batchScalarLinearMapTr x crs) (n * (2 * w (.add .G2) + 2 * w (.mul .G2))) fun l => l.length = n :=
  by
  subst hx
  exact (bounded_collect fun a _ => bounded_slm2 a).imp fun _ h => h.1

theorem costs_lmap_MSMEG1 (z : G1) (h : crs.v.length = 2) : Costs w (ComT.linearMapMSMEG1Tr e z crs)
    (2 * w (.add .G2) + 2 * w (.mul .G2) + 4 * w (.pairing 1)) fun _ => True :=
  costs_bind (costs_slm2 _ h) fun _ _ => costs_pairing _ _

theorem costs_lmap_MSMEG2 (z : G2) (h : crs.u.length = 2) : Costs w (ComT.linearMapMSMEG2Tr e z crs)
    (2 * w (.add .G1) + 2 * w (.mul .G1) + 4 * w (.pairing 1)) fun _ => True :=
  costs_bind (costs_slm1 _ h) fun _ _ => costs_pairing _ _

theorem costs_lmap_Quad (z : F) (hu : crs.u.length = 2) (hv : crs.v.length = 2) : Costs w (ComT.linearMapQuadTr e z crs)
    (2 * w (.add .G1) + 2 * w (.mul .G1) + (2 * w (.add .G2) + 2 * w (.mul .G2) + (2 * w (.mul .G2) + 4 * w (.pairing 1)))) fun _ => True :=
  costs_bind (costs_slm1 _ hu) fun _ _ => costs_bind (costs_slm2 _ hv) fun _ _ => costs_bind (costs_comMul _ _ _) fun _ _ => costs_pairing _ _

theorem bounded_lmap_MSMEG1 (z : G1) : Bounded w (ComT.linearMapMSMEG1Tr e z crs)
    (2 * w (.add .G2) + 2 * w (.mul .G2) + 4 * w (.pairing 1)) fun _ => True :=
  bounded_bind (bounded_slm2 _) fun _ _ => (costs_pairing _ _).bounded

theorem bounded_lmap_MSMEG2 (z : G2) : Bounded w (ComT.linearMapMSMEG2Tr e z crs)
    (2 * w (.add .G1) + 2 * w (.mul .G1) + 4 * w (.pairing 1)) fun _ => True :=
  bounded_bind (bounded_slm1 _) fun _ _ => (costs_pairing _ _).bounded

theorem bounded_lmap_Quad (z : F) : Bounded w (ComT.linearMapQuadTr e z crs)
    (2 * w (.add .G1) + 2 * w (.mul .G1) + (2 * w (.add .G2) + 2 * w (.mul .G2) + (2 * w (.mul .G2) + 4 * w (.pairing 1)))) fun _ => True :=
  bounded_bind (bounded_slm1 _) fun _ _ => bounded_bind (bounded_slm2 _) fun _ _ => bounded_bind (costs_comMul _ _ _).bounded fun _ _ =>
    (costs_pairing _ _).bounded

theorem len_lin1 {n : Nat} {x : List G1} (h : x.length = n) : (Com1.batchLinearMap x).length = n := by simpa [Com1.batchLinearMap] using h
theorem len_lin2 {n : Nat} {x : List G2} (h : x.length = n) : (Com2.batchLinearMap x).length = n := by simpa [Com2.batchLinearMap] using h

/-- The length of a list. -/
macro "clen" : tactic => `(tactic| first
  | assumption
  | exact len_lin1 (by assumption)
  | exact len_lin2 (by assumption))

/-- One call of the verifier. -/
macro "dsolve" : tactic => `(tactic| first
  | exact costs_assert (by first | assumption | omega)
  | exact costs_assertT (by first | assumption | exact Eq.symm (by assumption))
  | exact costs_pairingSum (by clen) (by clen)
  | exact costs_leftMul _ _ _ (by crect) (by crect) (by omega) (by omega) (by omega)
  | exact costs_colVecToVec (by crect)
  | exact costs_addT _ _
  | exact costs_bslm1 (by assumption) (by assumption)
  | exact costs_bslm2 (by assumption) (by assumption)
  | exact costs_lmap_MSMEG1 _ (by assumption)
  | exact costs_lmap_MSMEG2 _ (by assumption)
  | exact costs_lmap_Quad _ (by assumption) (by assumption)
  | exact costs_pairing _ _
  | exact costs_get (by assumption) (by omega))

theorem bounded_leftMul' (sch : Scheduler) {n : Nat} {M : List (Com G2)} (h : M.length = n) (L : Matrix F) :
    Bounded w (ComMat.leftMulTr .G2 sch (vecToColVec M) L true) (L.length * (n * (2 * w (.mul .G2) + 2 * w (.add .G2)))) fun _ => True :=
  h ▸ bounded_leftMul _ _ _ _ _ rfl

/-- For any input, whether the call accepts, rejects or panics. -/
theorem C91_ppe_bound [DecidableEq GT] (w : Op → Nat) (e : G1 →ₗ[F] G2 →ₗ[F] GT) (sch : Scheduler) (s : PPE F G1 G2 GT) (p : CProof F G1 G2) (crs : CRS G1 G2 GT) :
    price w (s.verifyTr e sch p crs) ≤
      4 * w (.pairing s.a_consts.length) + 8 * w (.pairing s.b_consts.length) + s.gamma.length * s.a_consts.length * (2 * w (.mul .G2) + 2 * w (.add .G2)) +
        4 * w (.pairing crs.u.length) + 4 * w (.pairing crs.v.length) + 16 * w (.add .GT) + 4 * w (.eq .GT) := by
  have h : Bounded w (s.verifyTr e sch p crs) (4 * w (.pairing s.a_consts.length) + 8 * w (.pairing s.b_consts.length) + s.gamma.length * s.a_consts.length * (2 * w (.mul .G2) + 2 * w (.add .G2)) +
        4 * w (.pairing crs.u.length) + 4 * w (.pairing crs.v.length) + 16 * w (.add .GT) + 4 * w (.eq .GT)) fun _ => True := by
    have ha : s.a_consts.length = s.a_consts.length := rfl
    have hb : s.b_consts.length = s.b_consts.length := rfl
    have hu : crs.u.length = crs.u.length := rfl
    have hv : crs.v.length = crs.v.length := rfl
    apply Bounded.le
    case h =>
      unfold PPE.verifyTr
      apply bounded_bind; (on_goal 1 => exact bounded_lift (P := fun _ => True) fun _ _ => trivial); intro _ _
      apply bounded_bind; (on_goal 1 => exact bounded_lift (P := fun _ => True) fun _ _ => trivial); intro pf _
      apply bounded_bind; (on_goal 1 => exact bounded_lift (P := fun _ => True) fun _ _ => trivial); intro _ _
      apply bounded_bind; (on_goal 1 => exact bounded_pairingSum (Or.inl (by clen))); intro _ hy
      apply bounded_bind; (on_goal 1 => exact bounded_pairingSum (Or.inr (by clen))); intro _ hx
      apply bounded_bind; (on_goal 1 => exact bounded_leftMul' _ hy.2 _); intro _ _
      apply bounded_bind; (on_goal 1 => exact bounded_lift (P := fun _ => True) fun _ _ => trivial); intro _ _
      apply bounded_bind; (on_goal 1 => exact bounded_pairingSum (Or.inl hx.1)); intro _ _
      apply bounded_bind; (on_goal 1 => exact bounded_pairingSum (Or.inl hu)); intro _ _
      apply bounded_bind; (on_goal 1 => exact bounded_pairingSum (Or.inr hv)); intro _ _
      apply bounded_bind; (on_goal 1 => exact (costs_addT _ _).bounded); intro _ _
      apply bounded_bind; (on_goal 1 => exact (costs_addT _ _).bounded); intro _ _
      apply bounded_bind; (on_goal 1 => exact (costs_addT _ _).bounded); intro _ _
      apply bounded_bind; (on_goal 1 => exact (costs_addT _ _).bounded); intro _ _
      exact bounded_eq _ _
    case hc => exact le_of_eq (by ring)
  exact h.1

theorem decides_PPE [DecidableEq GT] {m n : Nat} (hm : 0 < m) (hn : 0 < n) {s : PPE F G1 G2 GT}
    {p : CProof F G1 G2} {pf : EquProof F G1 G2} (ha : s.a_consts.length = n) (hb : s.b_consts.length = m) (hg : Rect m n s.gamma)
    (hp : p.equ_proofs = [pf]) (ht : pf.equ_type = s.getType)
    (hx : p.xcoms.coms.length = m) (hy : p.ycoms.coms.length = n) (hpi : pf.pi.length = 2) (hth : pf.theta.length = 2)
    (hu : crs.u.length = 2) (hv : crs.v.length = 2) (sch : Scheduler) :
    Decides w (s.verifyTr e sch p crs) (4 * w (.pairing n) + 8 * w (.pairing m) + m * n * (2 * w (.mul .G2) + 2 * w (.add .G2)) +
        4 * w (.pairing 2) + 4 * w (.pairing 2) + 16 * w (.add .GT)) := by
  have h1 : p.equ_proofs.length = 1 := by rw [hp]; rfl
  apply Decides.eq
  case h =>
    unfold PPE.verifyTr
    apply decides_bind; (on_goal 1 => exact costs_assert h1); intro _ _
    apply decides_bind; (on_goal 1 => exact costs_lift (P := fun x => x = pf) ⟨pf, by rw [hp]; rfl, rfl⟩); rintro _ rfl
    apply decides_bind; (on_goal 1 => exact costs_assertT ht.symm); intro _ _
    repeat (apply decides_bind; (on_goal 1 => dsolve); intro _ _)
    exact decides_eq _ _
  case hc => ring

theorem C91_ppe_exact [DecidableEq GT] (w : Op → Nat) (e : G1 →ₗ[F] G2 →ₗ[F] GT) {m n : Nat} (hm : 0 < m) (hn : 0 < n) {s : PPE F G1 G2 GT} (h : s.Dims m n)
    {p : CProof F G1 G2} {pf : EquProof F G1 G2} (hp : p.equ_proofs = [pf]) (ht : pf.equ_type = s.getType)
    (hx : p.xcoms.coms.length = m) (hy : p.ycoms.coms.length = n) (hpi : pf.pi.length = 2) (hth : pf.theta.length = 2)
    (hu : crs.u.length = 2) (hv : crs.v.length = 2) (sch : Scheduler) :
    let c := (s.verifyTr e sch p crs).ops.count (.eq .GT)
    (∃ b, s.verify e sch p crs = .ok b ∧ (b = true → c = 4)) ∧
      price w (s.verifyTr e sch p crs) =
        4 * w (.pairing n) + 8 * w (.pairing m) + m * n * (2 * w (.mul .G2) + 2 * w (.add .G2)) +
        4 * w (.pairing 2) + 4 * w (.pairing 2) + 16 * w (.add .GT) + c * w (.eq .GT) ∧ 1 ≤ c ∧ c ≤ 4 := by
  rw [← PPE.verifyTr_res]
  refine decides_count (c := fun w => 4 * w (.pairing n) + 8 * w (.pairing m) + m * n * (2 * w (.mul .G2) + 2 * w (.add .G2)) +
        4 * w (.pairing 2) + 4 * w (.pairing 2) + 16 * w (.add .GT))
    (fun w => decides_PPE hm hn h.a h.b ⟨h.rows, h.cols⟩ hp ht hx hy hpi hth hu hv sch) (fun w w' hw => ?_) (by simp) w
  simp only [hw _ (by simp : Op.pairing _ ≠ Op.eq Grp.GT), hw _ (by simp : Op.mul _ ≠ Op.eq Grp.GT), hw _ (by simp : Op.add _ ≠ Op.eq Grp.GT)]

/-- For any input, whether the call accepts, rejects or panics. -/
theorem C91_msmeg1_bound [DecidableEq GT] (w : Op → Nat) (e : G1 →ₗ[F] G2 →ₗ[F] GT) (sch : Scheduler) (s : MSMEG1 F G1) (p : CProof F G1 G2) (crs : CRS G1 G2 GT) :
    price w (s.verifyTr e sch p crs) ≤
      4 * w (.pairing s.a_consts.length) + 8 * w (.pairing s.b_consts.length) + s.gamma.length * s.a_consts.length * (2 * w (.mul .G2) + 2 * w (.add .G2)) + s.b_consts.length * (2 * w (.mul .G2) + 2 * w (.add .G2)) +
        ((2 * w (.mul .G2) + 2 * w (.add .G2)) + 4 * w (.pairing 1)) +
        4 * w (.pairing crs.u.length) + 4 * w (.pairing 1) + 16 * w (.add .GT) + 4 * w (.eq .GT) := by
  have h : Bounded w (s.verifyTr e sch p crs) (4 * w (.pairing s.a_consts.length) + 8 * w (.pairing s.b_consts.length) + s.gamma.length * s.a_consts.length * (2 * w (.mul .G2) + 2 * w (.add .G2)) + s.b_consts.length * (2 * w (.mul .G2) + 2 * w (.add .G2)) +
        ((2 * w (.mul .G2) + 2 * w (.add .G2)) + 4 * w (.pairing 1)) +
        4 * w (.pairing crs.u.length) + 4 * w (.pairing 1) + 16 * w (.add .GT) + 4 * w (.eq .GT)) fun _ => True := by
    have ha : s.a_consts.length = s.a_consts.length := rfl
    have hb : s.b_consts.length = s.b_consts.length := rfl
    have hu : crs.u.length = crs.u.length := rfl
    have hv : crs.v.length = crs.v.length := rfl
    apply Bounded.le
    case h =>
      unfold MSMEG1.verifyTr
      apply bounded_bind; (on_goal 1 => exact bounded_lift (P := fun _ => True) fun _ _ => trivial); intro _ _
      apply bounded_bind; (on_goal 1 => exact bounded_lift (P := fun _ => True) fun _ _ => trivial); intro pf _
      apply bounded_bind; (on_goal 1 => exact bounded_lift (P := fun _ => True) fun _ _ => trivial); intro _ _
      apply bounded_bind; (on_goal 1 => exact bounded_pairingSum (Or.inl (by clen))); intro _ hy
      apply bounded_bind; (on_goal 1 => exact bounded_bslm2 hb); intro _ hb2
      apply bounded_bind; (on_goal 1 => exact bounded_pairingSum (Or.inr (by clen))); intro _ hx
      apply bounded_bind; (on_goal 1 => exact bounded_leftMul' _ hy.2 _); intro _ _
      apply bounded_bind; (on_goal 1 => exact bounded_lift (P := fun _ => True) fun _ _ => trivial); intro _ _
      apply bounded_bind; (on_goal 1 => exact bounded_pairingSum (Or.inl hx.1)); intro _ _
      apply bounded_bind; (on_goal 1 => exact bounded_lmap_MSMEG1 _); intro _ _
      apply bounded_bind; (on_goal 1 => exact bounded_pairingSum (Or.inl hu)); intro _ _
      apply bounded_bind; (on_goal 1 => exact bounded_lift (P := fun _ => True) fun _ _ => trivial); intro _ _
      apply bounded_bind; (on_goal 1 => exact bounded_lift (P := fun _ => True) fun _ _ => trivial); intro _ _
      apply bounded_bind; (on_goal 1 => exact (costs_pairing _ _).bounded); intro _ _
      apply bounded_bind; (on_goal 1 => exact (costs_addT _ _).bounded); intro _ _
      apply bounded_bind; (on_goal 1 => exact (costs_addT _ _).bounded); intro _ _
      apply bounded_bind; (on_goal 1 => exact (costs_addT _ _).bounded); intro _ _
      apply bounded_bind; (on_goal 1 => exact (costs_addT _ _).bounded); intro _ _
      exact bounded_eq _ _
    case hc => exact le_of_eq (by ring)
  exact h.1

theorem decides_MSMEG1 [DecidableEq GT] {m n : Nat} (hm : 0 < m) (hn : 0 < n) {s : MSMEG1 F G1}
    {p : CProof F G1 G2} {pf : EquProof F G1 G2} (ha : s.a_consts.length = n) (hb : s.b_consts.length = m) (hg : Rect m n s.gamma)
    (hp : p.equ_proofs = [pf]) (ht : pf.equ_type = s.getType)
    (hx : p.xcoms.coms.length = m) (hy : p.ycoms.coms.length = n) (hpi : pf.pi.length = 2) (hth : pf.theta.length = 1)
    (hu : crs.u.length = 2) (hv : crs.v.length = 2) (sch : Scheduler) :
    Decides w (s.verifyTr e sch p crs) (4 * w (.pairing n) + 8 * w (.pairing m) + m * n * (2 * w (.mul .G2) + 2 * w (.add .G2)) + m * (2 * w (.mul .G2) + 2 * w (.add .G2)) +
        ((2 * w (.mul .G2) + 2 * w (.add .G2)) + 4 * w (.pairing 1)) +
        4 * w (.pairing 2) + 4 * w (.pairing 1) + 16 * w (.add .GT)) := by
  have h1 : p.equ_proofs.length = 1 := by rw [hp]; rfl
  apply Decides.eq
  case h =>
    unfold MSMEG1.verifyTr
    apply decides_bind; (on_goal 1 => exact costs_assert h1); intro _ _
    apply decides_bind; (on_goal 1 => exact costs_lift (P := fun x => x = pf) ⟨pf, by rw [hp]; rfl, rfl⟩); rintro _ rfl
    apply decides_bind; (on_goal 1 => exact costs_assertT ht.symm); intro _ _
    repeat (apply decides_bind; (on_goal 1 => dsolve); intro _ _)
    exact decides_eq _ _
  case hc => ring

theorem C91_msmeg1_exact [DecidableEq GT] (w : Op → Nat) (e : G1 →ₗ[F] G2 →ₗ[F] GT) {m n : Nat} (hm : 0 < m) (hn : 0 < n) {s : MSMEG1 F G1} (h : s.Dims m n)
    {p : CProof F G1 G2} {pf : EquProof F G1 G2} (hp : p.equ_proofs = [pf]) (ht : pf.equ_type = s.getType)
    (hx : p.xcoms.coms.length = m) (hy : p.ycoms.coms.length = n) (hpi : pf.pi.length = 2) (hth : pf.theta.length = 1)
    (hu : crs.u.length = 2) (hv : crs.v.length = 2) (sch : Scheduler) :
    let c := (s.verifyTr e sch p crs).ops.count (.eq .GT)
    (∃ b, s.verify e sch p crs = .ok b ∧ (b = true → c = 4)) ∧
      price w (s.verifyTr e sch p crs) =
        4 * w (.pairing n) + 8 * w (.pairing m) + m * n * (2 * w (.mul .G2) + 2 * w (.add .G2)) + m * (2 * w (.mul .G2) + 2 * w (.add .G2)) +
        ((2 * w (.mul .G2) + 2 * w (.add .G2)) + 4 * w (.pairing 1)) +
        4 * w (.pairing 2) + 4 * w (.pairing 1) + 16 * w (.add .GT) + c * w (.eq .GT) ∧ 1 ≤ c ∧ c ≤ 4 := by
  rw [← MSMEG1.verifyTr_res]
  refine decides_count (c := fun w => 4 * w (.pairing n) + 8 * w (.pairing m) + m * n * (2 * w (.mul .G2) + 2 * w (.add .G2)) + m * (2 * w (.mul .G2) + 2 * w (.add .G2)) +
        ((2 * w (.mul .G2) + 2 * w (.add .G2)) + 4 * w (.pairing 1)) +
        4 * w (.pairing 2) + 4 * w (.pairing 1) + 16 * w (.add .GT))
    (fun w => decides_MSMEG1 hm hn h.a h.b ⟨h.rows, h.cols⟩ hp ht hx hy hpi hth hu hv sch) (fun w w' hw => ?_) (by simp) w
  simp only [hw _ (by simp : Op.pairing _ ≠ Op.eq Grp.GT), hw _ (by simp : Op.mul _ ≠ Op.eq Grp.GT), hw _ (by simp : Op.add _ ≠ Op.eq Grp.GT)]

/-- For any input, whether the call accepts, rejects or panics. -/
theorem C91_msmeg2_bound [DecidableEq GT] (w : Op → Nat) (e : G1 →ₗ[F] G2 →ₗ[F] GT) (sch : Scheduler) (s : MSMEG2 F G2) (p : CProof F G1 G2) (crs : CRS G1 G2 GT) :
    price w (s.verifyTr e sch p crs) ≤
      4 * w (.pairing s.a_consts.length) + 8 * w (.pairing s.b_consts.length) + s.gamma.length * s.a_consts.length * (2 * w (.mul .G2) + 2 * w (.add .G2)) + s.a_consts.length * (2 * w (.mul .G1) + 2 * w (.add .G1)) +
        ((2 * w (.mul .G1) + 2 * w (.add .G1)) + 4 * w (.pairing 1)) +
        4 * w (.pairing 1) + 4 * w (.pairing crs.v.length) + 16 * w (.add .GT) + 4 * w (.eq .GT) := by
  have h : Bounded w (s.verifyTr e sch p crs) (4 * w (.pairing s.a_consts.length) + 8 * w (.pairing s.b_consts.length) + s.gamma.length * s.a_consts.length * (2 * w (.mul .G2) + 2 * w (.add .G2)) + s.a_consts.length * (2 * w (.mul .G1) + 2 * w (.add .G1)) +
        ((2 * w (.mul .G1) + 2 * w (.add .G1)) + 4 * w (.pairing 1)) +
        4 * w (.pairing 1) + 4 * w (.pairing crs.v.length) + 16 * w (.add .GT) + 4 * w (.eq .GT)) fun _ => True := by
    have ha : s.a_consts.length = s.a_consts.length := rfl
    have hb : s.b_consts.length = s.b_consts.length := rfl
    have hu : crs.u.length = crs.u.length := rfl
    have hv : crs.v.length = crs.v.length := rfl
    apply Bounded.le
    case h =>
      unfold MSMEG2.verifyTr
      apply bounded_bind; (on_goal 1 => exact bounded_lift (P := fun _ => True) fun _ _ => trivial); intro _ _
      apply bounded_bind; (on_goal 1 => exact bounded_lift (P := fun _ => True) fun _ _ => trivial); intro pf _
      apply bounded_bind; (on_goal 1 => exact bounded_lift (P := fun _ => True) fun _ _ => trivial); intro _ _
      apply bounded_bind; (on_goal 1 => exact bounded_bslm1 ha); intro _ ha2
      apply bounded_bind; (on_goal 1 => exact bounded_pairingSum (Or.inl (by clen))); intro _ hy
      apply bounded_bind; (on_goal 1 => exact bounded_pairingSum (Or.inr (by clen))); intro _ hx
      apply bounded_bind; (on_goal 1 => exact bounded_leftMul' _ hy.2 _); intro _ _
      apply bounded_bind; (on_goal 1 => exact bounded_lift (P := fun _ => True) fun _ _ => trivial); intro _ _
      apply bounded_bind; (on_goal 1 => exact bounded_pairingSum (Or.inl hx.1)); intro _ _
      apply bounded_bind; (on_goal 1 => exact bounded_lmap_MSMEG2 _); intro _ _
      apply bounded_bind; (on_goal 1 => exact bounded_lift (P := fun _ => True) fun _ _ => trivial); intro _ _
      apply bounded_bind; (on_goal 1 => exact bounded_lift (P := fun _ => True) fun _ _ => trivial); intro _ _
      apply bounded_bind; (on_goal 1 => exact (costs_pairing _ _).bounded); intro _ _
      apply bounded_bind; (on_goal 1 => exact bounded_pairingSum (Or.inr hv)); intro _ _
      apply bounded_bind; (on_goal 1 => exact (costs_addT _ _).bounded); intro _ _
      apply bounded_bind; (on_goal 1 => exact (costs_addT _ _).bounded); intro _ _
      apply bounded_bind; (on_goal 1 => exact (costs_addT _ _).bounded); intro _ _
      apply bounded_bind; (on_goal 1 => exact (costs_addT _ _).bounded); intro _ _
      exact bounded_eq _ _
    case hc => exact le_of_eq (by ring)
  exact h.1

theorem decides_MSMEG2 [DecidableEq GT] {m n : Nat} (hm : 0 < m) (hn : 0 < n) {s : MSMEG2 F G2}
    {p : CProof F G1 G2} {pf : EquProof F G1 G2} (ha : s.a_consts.length = n) (hb : s.b_consts.length = m) (hg : Rect m n s.gamma)
    (hp : p.equ_proofs = [pf]) (ht : pf.equ_type = s.getType)
    (hx : p.xcoms.coms.length = m) (hy : p.ycoms.coms.length = n) (hpi : pf.pi.length = 1) (hth : pf.theta.length = 2)
    (hu : crs.u.length = 2) (hv : crs.v.length = 2) (sch : Scheduler) :
    Decides w (s.verifyTr e sch p crs) (4 * w (.pairing n) + 8 * w (.pairing m) + m * n * (2 * w (.mul .G2) + 2 * w (.add .G2)) + n * (2 * w (.mul .G1) + 2 * w (.add .G1)) +
        ((2 * w (.mul .G1) + 2 * w (.add .G1)) + 4 * w (.pairing 1)) +
        4 * w (.pairing 1) + 4 * w (.pairing 2) + 16 * w (.add .GT)) := by
  have h1 : p.equ_proofs.length = 1 := by rw [hp]; rfl
  apply Decides.eq
  case h =>
    unfold MSMEG2.verifyTr
    apply decides_bind; (on_goal 1 => exact costs_assert h1); intro _ _
    apply decides_bind; (on_goal 1 => exact costs_lift (P := fun x => x = pf) ⟨pf, by rw [hp]; rfl, rfl⟩); rintro _ rfl
    apply decides_bind; (on_goal 1 => exact costs_assertT ht.symm); intro _ _
    repeat (apply decides_bind; (on_goal 1 => dsolve); intro _ _)
    exact decides_eq _ _
  case hc => ring

theorem C91_msmeg2_exact [DecidableEq GT] (w : Op → Nat) (e : G1 →ₗ[F] G2 →ₗ[F] GT) {m n : Nat} (hm : 0 < m) (hn : 0 < n) {s : MSMEG2 F G2} (h : s.Dims m n)
    {p : CProof F G1 G2} {pf : EquProof F G1 G2} (hp : p.equ_proofs = [pf]) (ht : pf.equ_type = s.getType)
    (hx : p.xcoms.coms.length = m) (hy : p.ycoms.coms.length = n) (hpi : pf.pi.length = 1) (hth : pf.theta.length = 2)
    (hu : crs.u.length = 2) (hv : crs.v.length = 2) (sch : Scheduler) :
    let c := (s.verifyTr e sch p crs).ops.count (.eq .GT)
    (∃ b, s.verify e sch p crs = .ok b ∧ (b = true → c = 4)) ∧
      price w (s.verifyTr e sch p crs) =
        4 * w (.pairing n) + 8 * w (.pairing m) + m * n * (2 * w (.mul .G2) + 2 * w (.add .G2)) + n * (2 * w (.mul .G1) + 2 * w (.add .G1)) +
        ((2 * w (.mul .G1) + 2 * w (.add .G1)) + 4 * w (.pairing 1)) +
        4 * w (.pairing 1) + 4 * w (.pairing 2) + 16 * w (.add .GT) + c * w (.eq .GT) ∧ 1 ≤ c ∧ c ≤ 4 := by
  rw [← MSMEG2.verifyTr_res]
  refine decides_count (c := fun w => 4 * w (.pairing n) + 8 * w (.pairing m) + m * n * (2 * w (.mul .G2) + 2 * w (.add .G2)) + n * (2 * w (.mul .G1) + 2 * w (.add .G1)) +
        ((2 * w (.mul .G1) + 2 * w (.add .G1)) + 4 * w (.pairing 1)) +
        4 * w (.pairing 1) + 4 * w (.pairing 2) + 16 * w (.add .GT))
    (fun w => decides_MSMEG2 hm hn h.a h.b ⟨h.rows, h.cols⟩ hp ht hx hy hpi hth hu hv sch) (fun w w' hw => ?_) (by simp) w
  simp only [hw _ (by simp : Op.pairing _ ≠ Op.eq Grp.GT), hw _ (by simp : Op.mul _ ≠ Op.eq Grp.GT), hw _ (by simp : Op.add _ ≠ Op.eq Grp.GT)]

/-- For any input, whether the call accepts, rejects or panics. -/
theorem C91_quad_bound [DecidableEq GT] (w : Op → Nat) (e : G1 →ₗ[F] G2 →ₗ[F] GT) (sch : Scheduler) (s : QuadEqu F) (p : CProof F G1 G2) (crs : CRS G1 G2 GT) :
    price w (s.verifyTr e sch p crs) ≤
      4 * w (.pairing s.a_consts.length) + 8 * w (.pairing s.b_consts.length) + s.gamma.length * s.a_consts.length * (2 * w (.mul .G2) + 2 * w (.add .G2)) + s.a_consts.length * (2 * w (.mul .G1) + 2 * w (.add .G1)) + s.b_consts.length * (2 * w (.mul .G2) + 2 * w (.add .G2)) +
        ((2 * w (.mul .G1) + 2 * w (.add .G1)) + (2 * w (.mul .G2) + 2 * w (.add .G2)) + 2 * w (.mul .G2) + 4 * w (.pairing 1)) +
        4 * w (.pairing 1) + 4 * w (.pairing 1) + 16 * w (.add .GT) + 4 * w (.eq .GT) := by
  have h : Bounded w (s.verifyTr e sch p crs) (4 * w (.pairing s.a_consts.length) + 8 * w (.pairing s.b_consts.length) + s.gamma.length * s.a_consts.length * (2 * w (.mul .G2) + 2 * w (.add .G2)) + s.a_consts.length * (2 * w (.mul .G1) + 2 * w (.add .G1)) + s.b_consts.length * (2 * w (.mul .G2) + 2 * w (.add .G2)) +
        ((2 * w (.mul .G1) + 2 * w (.add .G1)) + (2 * w (.mul .G2) + 2 * w (.add .G2)) + 2 * w (.mul .G2) + 4 * w (.pairing 1)) +
        4 * w (.pairing 1) + 4 * w (.pairing 1) + 16 * w (.add .GT) + 4 * w (.eq .GT)) fun _ => True := by
    have ha : s.a_consts.length = s.a_consts.length := rfl
    have hb : s.b_consts.length = s.b_consts.length := rfl
    have hu : crs.u.length = crs.u.length := rfl
    have hv : crs.v.length = crs.v.length := rfl
    apply Bounded.le
    case h =>
      unfold QuadEqu.verifyTr
      apply bounded_bind; (on_goal 1 => exact bounded_lift (P := fun _ => True) fun _ _ => trivial); intro _ _
      apply bounded_bind; (on_goal 1 => exact bounded_lift (P := fun _ => True) fun _ _ => trivial); intro pf _
      apply bounded_bind; (on_goal 1 => exact bounded_lift (P := fun _ => True) fun _ _ => trivial); intro _ _
      apply bounded_bind; (on_goal 1 => exact bounded_bslm1 ha); intro _ ha2
      apply bounded_bind; (on_goal 1 => exact bounded_pairingSum (Or.inl (by clen))); intro _ hy
      apply bounded_bind; (on_goal 1 => exact bounded_bslm2 hb); intro _ hb2
      apply bounded_bind; (on_goal 1 => exact bounded_pairingSum (Or.inr (by clen))); intro _ hx
      apply bounded_bind; (on_goal 1 => exact bounded_leftMul' _ hy.2 _); intro _ _
      apply bounded_bind; (on_goal 1 => exact bounded_lift (P := fun _ => True) fun _ _ => trivial); intro _ _
      apply bounded_bind; (on_goal 1 => exact bounded_pairingSum (Or.inl hx.1)); intro _ _
      apply bounded_bind; (on_goal 1 => exact bounded_lmap_Quad _); intro _ _
      apply bounded_bind; (on_goal 1 => exact bounded_lift (P := fun _ => True) fun _ _ => trivial); intro _ _
      apply bounded_bind; (on_goal 1 => exact bounded_lift (P := fun _ => True) fun _ _ => trivial); intro _ _
      apply bounded_bind; (on_goal 1 => exact (costs_pairing _ _).bounded); intro _ _
      apply bounded_bind; (on_goal 1 => exact bounded_lift (P := fun _ => True) fun _ _ => trivial); intro _ _
      apply bounded_bind; (on_goal 1 => exact bounded_lift (P := fun _ => True) fun _ _ => trivial); intro _ _
      apply bounded_bind; (on_goal 1 => exact (costs_pairing _ _).bounded); intro _ _
      apply bounded_bind; (on_goal 1 => exact (costs_addT _ _).bounded); intro _ _
      apply bounded_bind; (on_goal 1 => exact (costs_addT _ _).bounded); intro _ _
      apply bounded_bind; (on_goal 1 => exact (costs_addT _ _).bounded); intro _ _
      apply bounded_bind; (on_goal 1 => exact (costs_addT _ _).bounded); intro _ _
      exact bounded_eq _ _
    case hc => exact le_of_eq (by ring)
  exact h.1

theorem decides_QuadEqu [DecidableEq GT] {m n : Nat} (hm : 0 < m) (hn : 0 < n) {s : QuadEqu F}
    {p : CProof F G1 G2} {pf : EquProof F G1 G2} (ha : s.a_consts.length = n) (hb : s.b_consts.length = m) (hg : Rect m n s.gamma)
    (hp : p.equ_proofs = [pf]) (ht : pf.equ_type = s.getType)
    (hx : p.xcoms.coms.length = m) (hy : p.ycoms.coms.length = n) (hpi : pf.pi.length = 1) (hth : pf.theta.length = 1)
    (hu : crs.u.length = 2) (hv : crs.v.length = 2) (sch : Scheduler) :
    Decides w (s.verifyTr e sch p crs) (4 * w (.pairing n) + 8 * w (.pairing m) + m * n * (2 * w (.mul .G2) + 2 * w (.add .G2)) + n * (2 * w (.mul .G1) + 2 * w (.add .G1)) + m * (2 * w (.mul .G2) + 2 * w (.add .G2)) +
        ((2 * w (.mul .G1) + 2 * w (.add .G1)) + (2 * w (.mul .G2) + 2 * w (.add .G2)) + 2 * w (.mul .G2) + 4 * w (.pairing 1)) +
        4 * w (.pairing 1) + 4 * w (.pairing 1) + 16 * w (.add .GT)) := by
  have h1 : p.equ_proofs.length = 1 := by rw [hp]; rfl
  apply Decides.eq
  case h =>
    unfold QuadEqu.verifyTr
    apply decides_bind; (on_goal 1 => exact costs_assert h1); intro _ _
    apply decides_bind; (on_goal 1 => exact costs_lift (P := fun x => x = pf) ⟨pf, by rw [hp]; rfl, rfl⟩); rintro _ rfl
    apply decides_bind; (on_goal 1 => exact costs_assertT ht.symm); intro _ _
    repeat (apply decides_bind; (on_goal 1 => dsolve); intro _ _)
    exact decides_eq _ _
  case hc => ring

theorem C91_quad_exact [DecidableEq GT] (w : Op → Nat) (e : G1 →ₗ[F] G2 →ₗ[F] GT) {m n : Nat} (hm : 0 < m) (hn : 0 < n) {s : QuadEqu F} (h : s.Dims m n)
    {p : CProof F G1 G2} {pf : EquProof F G1 G2} (hp : p.equ_proofs = [pf]) (ht : pf.equ_type = s.getType)
    (hx : p.xcoms.coms.length = m) (hy : p.ycoms.coms.length = n) (hpi : pf.pi.length = 1) (hth : pf.theta.length = 1)
    (hu : crs.u.length = 2) (hv : crs.v.length = 2) (sch : Scheduler) :
    let c := (s.verifyTr e sch p crs).ops.count (.eq .GT)
    (∃ b, s.verify e sch p crs = .ok b ∧ (b = true → c = 4)) ∧
      price w (s.verifyTr e sch p crs) =
        4 * w (.pairing n) + 8 * w (.pairing m) + m * n * (2 * w (.mul .G2) + 2 * w (.add .G2)) + n * (2 * w (.mul .G1) + 2 * w (.add .G1)) + m * (2 * w (.mul .G2) + 2 * w (.add .G2)) +
        ((2 * w (.mul .G1) + 2 * w (.add .G1)) + (2 * w (.mul .G2) + 2 * w (.add .G2)) + 2 * w (.mul .G2) + 4 * w (.pairing 1)) +
        4 * w (.pairing 1) + 4 * w (.pairing 1) + 16 * w (.add .GT) + c * w (.eq .GT) ∧ 1 ≤ c ∧ c ≤ 4 := by
  rw [← QuadEqu.verifyTr_res]
  refine decides_count (c := fun w => 4 * w (.pairing n) + 8 * w (.pairing m) + m * n * (2 * w (.mul .G2) + 2 * w (.add .G2)) + n * (2 * w (.mul .G1) + 2 * w (.add .G1)) + m * (2 * w (.mul .G2) + 2 * w (.add .G2)) +
        ((2 * w (.mul .G1) + 2 * w (.add .G1)) + (2 * w (.mul .G2) + 2 * w (.add .G2)) + 2 * w (.mul .G2) + 4 * w (.pairing 1)) +
        4 * w (.pairing 1) + 4 * w (.pairing 1) + 16 * w (.add .GT))
    (fun w => decides_QuadEqu hm hn h.a h.b ⟨h.rows, h.cols⟩ hp ht hx hy hpi hth hu hv sch) (fun w w' hw => ?_) (by simp) w
  simp only [hw _ (by simp : Op.pairing _ ≠ Op.eq Grp.GT), hw _ (by simp : Op.mul _ ≠ Op.eq Grp.GT), hw _ (by simp : Op.add _ ≠ Op.eq Grp.GT)]

end

/-! ## Examples -/

namespace Ex

/-- One pairing product proof for one and two variables: 52 multiplications in the groups, no pairing. -/
example :
    price (fun o => if o = .mul .G1 ∨ o = .mul .G2 then 1 else 0) (ppe7.commitAndProveTr (fun _ => seqSched) [2] [3, 4] crs7 (1 : Nat)) = 52 ∧
      price pairs (ppe7.commitAndProveTr (fun _ => seqSched) [2] [3, 4] crs7 (1 : Nat)) = 0 := by
  constructor
  · rw [(C92_ppe_commit_and_prove (crs := crs7) (ρ := Nat) _ (by omega) (by omega) ppe7_dims rfl rfl rfl rfl _ _).2]
    rfl
  · rw [(C92_ppe_commit_and_prove (crs := crs7) (ρ := Nat) _ (by omega) (by omega) ppe7_dims rfl rfl rfl rfl _ _).2]
    rfl

/-- A message with the commitments of a thousand values and no proof elements is refused without a single pairing. -/
example : price pairs (ppe7.verifyTr e7 seqSched ⟨⟨List.replicate 1000 0, []⟩, ⟨List.replicate 1000 0, []⟩, []⟩ crs7) = 0 := rfl

/-- Whatever the message, at most 32 pairs are fed to the pairing. -/
example (p : CProof K K K) : price pairs (ppe7.verifyTr e7 seqSched p crs7) ≤ 32 := C91_ppe_bound pairs e7 seqSched ppe7 p crs7

/-- An accepted message. -/
example :
    let good : CProof K K K := ⟨⟨[⟨0, 2⟩], []⟩, ⟨[⟨0, 3⟩, ⟨0, 4⟩], []⟩, [⟨[0, 0], [0, 0], .PairingProduct, []⟩]⟩
    price (fun o => if o = .eq .GT then 1 else 0) (ppe7.verifyTr e7 seqSched good crs7) = 4 := by
  intro good
  obtain ⟨⟨b, h1, h2⟩, h3, _⟩ := C91_ppe_exact (crs := crs7) (fun o => if o = .eq .GT then 1 else 0) e7 (by omega) (by omega) ppe7_dims
    (p := good) rfl rfl rfl rfl rfl rfl rfl rfl seqSched
  have : ppe7.verify e7 seqSched good crs7 = .ok true := by decide
  rw [this] at h1
  cases h1
  rw [h3, h2 rfl]
  rfl

/-! ### Instances: the other operations, whatever an operation costs -/

section
variable (w : Op → Nat) (sch : Nat → Scheduler) (s : Scheduler)

example := C92_commit_G1 (F := K) (crs := crs7) w 2 rfl (1 : Nat)
example := C92_batch_commit_G1 (F := K) (crs := crs7) w (x := [2, 3]) rfl (by decide) rfl (1 : Nat)
example := C92_commit_G2 (F := K) (crs := crs7) w 2 rfl (1 : Nat)
example := C92_batch_commit_G2 (F := K) (crs := crs7) w (x := [2, 3]) rfl (by decide) rfl (1 : Nat)
example := C92_commit_scalar_B1 (F := K) (crs := crs7) w 2 rfl (1 : Nat)
example := C92_batch_commit_scalar_B1 (F := K) (crs := crs7) w (x := [2, 3]) rfl (by decide) rfl (1 : Nat)
example := C92_commit_scalar_B2 (F := K) (crs := crs7) w 2 rfl (1 : Nat)
example := C92_batch_commit_scalar_B2 (F := K) (crs := crs7) w (x := [2, 3]) rfl (by decide) rfl (1 : Nat)
example := C92_ppe_prove (crs := crs7) w (by decide) (by decide) ppe7_dims (x := [2]) (y := [3, 4]) (cx := ppe7_msg.xcoms) (cy := ppe7_msg.ycoms) rfl rfl
  (by unfold Rect; decide) (by unfold Rect; decide) rfl rfl sch (1 : Nat)
example := C92_msmeg1_prove (crs := crs7) w (by decide) (by decide) msm1_7_dims (x := [2]) (y := [3, 4]) (cx := msm1_7_msg.xcoms) (cy := msm1_7_msg.ycoms) rfl rfl
  (by unfold Rect; decide) (by unfold Rect; decide) rfl rfl sch (1 : Nat)
example := C92_msmeg1_commit_and_prove (crs := crs7) w (by decide) (by decide) msm1_7_dims (x := [2]) (y := [3, 4]) rfl rfl rfl rfl sch (1 : Nat)
example := C91_msmeg1_exact (crs := crs7) w e7 (by decide) (by decide) msm1_7_dims (p := msm1_7_msg) rfl rfl rfl rfl rfl rfl rfl rfl s
example := C92_msmeg2_prove (crs := crs7) w (by decide) (by decide) msm2_7_dims (x := [2]) (y := [3, 4]) (cx := msm2_7_msg.xcoms) (cy := msm2_7_msg.ycoms) rfl rfl
  (by unfold Rect; decide) (by unfold Rect; decide) rfl rfl sch (1 : Nat)
example := C92_msmeg2_commit_and_prove (crs := crs7) w (by decide) (by decide) msm2_7_dims (x := [2]) (y := [3, 4]) rfl rfl rfl rfl sch (1 : Nat)
example := C91_msmeg2_exact (crs := crs7) w e7 (by decide) (by decide) msm2_7_dims (p := msm2_7_msg) rfl rfl rfl rfl rfl rfl rfl rfl s
example := C92_quad_prove (crs := crs7) w (by decide) (by decide) quad7_dims (x := [2]) (y := [3, 4]) (cx := quad7_msg.xcoms) (cy := quad7_msg.ycoms) rfl rfl
  (by unfold Rect; decide) (by unfold Rect; decide) rfl rfl sch (1 : Nat)
example := C92_quad_commit_and_prove (crs := crs7) w (by decide) (by decide) quad7_dims (x := [2]) (y := [3, 4]) rfl rfl rfl rfl sch (1 : Nat)
example := C91_quad_exact (crs := crs7) w e7 (by decide) (by decide) quad7_dims (p := quad7_msg) rfl rfl rfl rfl rfl rfl rfl rfl s

end

end Ex

end GS
