import Verif.Lemmas.Calls
import Verif.Props.Matrices
import Verif.Props.Example

/-!
# C83: calls that run at the same time

`Call.Yields` (`Verif/Spec/Calls.lean`) is about one call, `SysStep` (`Verif/Model/Calls.lean`) about any number of them.
-/

set_option linter.unusedSectionVars false

namespace GS

/-- C83: any number of calls running at the same time come to an end, and each ends as if it ran alone. -/
theorem C83_calls {n : Nat} {α : Fin n → Type} (calls : ∀ i, Call (α i)) (r : ∀ i, Res (α i))
    (hr : ∀ i, (calls i).Yields (r i)) :
    (¬ ∃ run : Nat → ∀ i, CallState (α i), run 0 = sysStart calls ∧ ∀ k, SysStep (run k) (run (k + 1))) ∧
    ∀ s, Relation.ReflTransGen SysStep (sysStart calls) s →
      (∀ i x, s i = .done x → x = r i) ∧ ((∀ s', ¬ SysStep s s') → ∀ i, s i = .done (r i)) := by
  refine ⟨fun ⟨run, _, h⟩ => sys_no_infinite_run ⟨run, h⟩, fun s hs => ?_⟩
  have h1 : ∀ i x, s i = .done x → x = r i := fun i x hx => by
    have := sys_reach hs i
    rw [hx] at this
    exact (hr i x).mp this
  refine ⟨h1, fun hstuck i => ?_⟩
  rcases call_progress (s i) with ⟨s', h⟩ | ⟨x, hx⟩
  · exact absurd (.call s i s' h) (hstuck _)
  · rw [hx, h1 i x hx]

variable {F G1 G2 GT : Type} [Field F] [AddCommGroup G1] [Module F G1] [AddCommGroup G2] [Module F G2]

/-! ### The parallel branch panics as the sequential one does -/

/-- Every panic of `x` is an index out of bounds. -/
def OnlyIdx {α : Type} (x : Res α) : Prop := ∀ p, x = .error p → p = .indexOutOfBounds

theorem OnlyIdx.pure {α : Type} (a : α) : OnlyIdx (Pure.pure a : Res α) := fun _ h => nomatch h

theorem OnlyIdx.bind {α β : Type} {x : Res α} {f : α → Res β} (hx : OnlyIdx x) (hf : ∀ a, OnlyIdx (f a)) :
    OnlyIdx (x >>= f) := by
  rcases x with p | a
  · intro q hq
    cases hq
    exact hx _ rfl
  · exact hf a

theorem OnlyIdx.collect {α β : Type} {f : α → Res β} {l : List α} (hf : ∀ a, OnlyIdx (f a)) : OnlyIdx (collect f l) := by
  induction l with
  | nil => exact .pure _
  | cons a l ih => exact .bind (hf a) fun _ => .bind ih fun _ => .pure _

theorem OnlyIdx.foldRes {α β : Type} {f : β → α → Res β} {l : List α} (hf : ∀ b a, OnlyIdx (f b a)) (b : β) :
    OnlyIdx (foldRes f b l) := by
  induction l generalizing b with
  | nil => exact .pure _
  | cons a l ih => exact .bind (hf b a) fun _ => ih _

theorem OnlyIdx.ext {α : Type} {x y : Res α} (hx : OnlyIdx x) (hy : OnlyIdx y) (h : ∀ a, x = .ok a ↔ y = .ok a) : x = y := by
  rcases x with p | a
  · rcases y with q | b
    · rw [hx p rfl, hy q rfl]
    · exact absurd ((h b).mpr rfl) (by simp)
  · exact ((h a).mp rfl).symm

theorem parGrid_eq {β : Type} (sch : Scheduler) (m n : Nat) {f : Nat → Nat → Res β} (hf : ∀ i j, OnlyIdx (f i j)) :
    parGrid sch m n f = seqGrid m n f := by
  refine OnlyIdx.ext ?_ ?_ fun M => parGrid_ok_iff_seqGrid sch
  · refine .bind (.foldRes (fun s p => .bind (hf _ _) fun _ => .pure _) _) fun s => .collect fun i => .collect fun j => ?_
    intro p hp
    unfold Slots.read at hp
    split at hp <;> cases hp
    rfl
  · exact .collect fun i => .collect fun j => hf i j

theorem leftMul_par {G : Type} [AddCommGroup G] [Module F G] (sch : Scheduler) (self : Matrix (Com G)) (lhs : Matrix F) :
    ComMat.leftMul sch self lhs true = ComMat.leftMul sch self lhs false := by
  have h := fun m n => parGrid_eq sch m n (f := fun i j => do
      let row ← idx lhs i
      let dim := self.length
      let terms ← collect (fun k => do pure ((← idx2 self k j).scalarMul (← idx row k))) (List.range dim)
      pure (rustSum terms)) fun i j => .bind (fun _ => idx_error) fun row => .bind (.collect fun k =>
        .bind (fun _ => idx2_error) fun _ => .bind (fun _ => idx_error) fun _ => .pure _) fun _ => .pure _
  simp only [ComMat.leftMul, h, if_true, Bool.false_eq_true, if_false]

theorem rightMul_par (sch : Scheduler) (self rhs : Matrix F) :
    FieldMat.rightMul sch self rhs true = FieldMat.rightMul sch self rhs false := by
  have h := fun m n => parGrid_eq sch m n (f := fun i j => do
      let row ← idx self i
      let dim := rhs.length
      let terms ← collect (fun k => do pure ((← idx row k) * (← idx2 rhs k j))) (List.range dim)
      pure (rustSum terms)) fun i j => .bind (fun _ => idx_error) fun row => .bind (.collect fun k =>
        .bind (fun _ => idx_error) fun _ => .bind (fun _ => idx2_error) fun _ => .pure _) fun _ => .pure _
  simp only [FieldMat.rightMul, h, if_true, Bool.false_eq_true, if_false]

theorem eval_leftMul {G : Type} [AddCommGroup G] [Module F G] (sch : Scheduler) (self : Matrix (Com G)) (lhs : Matrix F) :
    (ComMat.leftMulCall self lhs).eval = ComMat.leftMul sch self lhs true := by
  have h1 := ((C68_com_left_mul self lhs sch).2 _).mp ((concProduct_seq lhs self (fun b a => a.scalarMul b) _).mpr rfl)
  change (do let M ← seqProduct lhs self (fun b a => a.scalarMul b); Except.ok M) = _
  rw [h1, leftMul_par]
  cases ComMat.leftMul sch self lhs false <;> rfl

theorem eval_rightMul (sch : Scheduler) (self rhs : Matrix F) :
    (FieldMat.rightMulCall self rhs).eval = FieldMat.rightMul sch self rhs true := by
  have h1 := ((C68_field_right_mul self rhs sch).2 _).mp ((concProduct_seq self rhs (fun a b => a * b) _).mpr rfl)
  change (do let M ← seqProduct self rhs (fun a b => a * b); Except.ok M) = _
  rw [h1, rightMul_par]
  cases FieldMat.rightMul sch self rhs false <;> rfl

/-! ### The calls -/

section prove
variable {ρ : Type} [Rng ρ F G1 G2] (sch : Nat → Scheduler) (crs : CRS G1 G2 GT) (rng : ρ)

theorem ppe_prove_eval (equ : PPE F G1 G2 GT) (x : List G1) (y : List G2) (xc : Commit F G1) (yc : Commit F G2) :
    (equ.proveCall x y xc yc crs rng).eval = equ.prove sch x y xc yc crs rng := by
  simp only [PPE.proveCall, PPE.prove, Call.eval_bind, Call.eval_lift, Call.eval_pure, ← eval_leftMul,
    ← eval_rightMul]
  rfl

theorem msmeg1_prove_eval (equ : MSMEG1 F G1) (x : List G1) (y : List F) (xc : Commit F G1) (yc : Commit F G2) :
    (equ.proveCall x y xc yc crs rng).eval = equ.prove sch x y xc yc crs rng := by
  simp only [MSMEG1.proveCall, MSMEG1.prove, Call.eval_bind, Call.eval_lift, Call.eval_pure, ← eval_leftMul,
    ← eval_rightMul]
  rfl

theorem msmeg2_prove_eval (equ : MSMEG2 F G2) (x : List F) (y : List G2) (xc : Commit F G1) (yc : Commit F G2) :
    (equ.proveCall x y xc yc crs rng).eval = equ.prove sch x y xc yc crs rng := by
  simp only [MSMEG2.proveCall, MSMEG2.prove, Call.eval_bind, Call.eval_lift, Call.eval_pure, ← eval_leftMul,
    ← eval_rightMul]
  rfl

theorem quad_prove_eval (equ : QuadEqu F) (x : List F) (y : List F) (xc : Commit F G1) (yc : Commit F G2) :
    (equ.proveCall x y xc yc crs rng).eval = equ.prove sch x y xc yc crs rng := by
  simp only [QuadEqu.proveCall, QuadEqu.prove, Call.eval_bind, Call.eval_lift, Call.eval_pure, ← eval_leftMul,
    ← eval_rightMul]
  rfl

/-- C83 for `PPE::prove`. -/
theorem C83_ppe_prove (equ : PPE F G1 G2 GT) (x : List G1) (y : List G2) (xc : Commit F G1) (yc : Commit F G2) :
    (equ.proveCall x y xc yc crs rng).Yields (equ.prove sch x y xc yc crs rng) := by
  rw [← ppe_prove_eval]
  exact Call.yields_eval _

/-- C83 for `PPE::commit_and_prove`. -/
theorem C83_ppe_commit_and_prove (equ : PPE F G1 G2 GT) (x : List G1) (y : List G2) :
    (equ.commitAndProveCall x y crs rng).Yields (equ.commitAndProve sch x y crs rng) := by
  have h : (equ.commitAndProveCall x y crs rng).eval = equ.commitAndProve sch x y crs rng := by
    simp only [PPE.commitAndProveCall, PPE.commitAndProve, Call.eval_bind, Call.eval_lift, Call.eval_pure,
      ppe_prove_eval sch]
    rfl
  rw [← h]
  exact Call.yields_eval _

/-- C83 for `MSMEG1::prove`. -/
theorem C83_msmeg1_prove (equ : MSMEG1 F G1) (x : List G1) (y : List F) (xc : Commit F G1) (yc : Commit F G2) :
    (equ.proveCall x y xc yc crs rng).Yields (equ.prove sch x y xc yc crs rng) := by
  rw [← msmeg1_prove_eval]
  exact Call.yields_eval _

/-- C83 for `MSMEG1::commit_and_prove`. -/
theorem C83_msmeg1_commit_and_prove (equ : MSMEG1 F G1) (x : List G1) (y : List F) :
    (equ.commitAndProveCall x y crs rng).Yields (equ.commitAndProve sch x y crs rng) := by
  have h : (equ.commitAndProveCall x y crs rng).eval = equ.commitAndProve sch x y crs rng := by
    simp only [MSMEG1.commitAndProveCall, MSMEG1.commitAndProve, Call.eval_bind, Call.eval_lift, Call.eval_pure,
      msmeg1_prove_eval sch]
    rfl
  rw [← h]
  exact Call.yields_eval _

/-- C83 for `MSMEG2::prove`. -/
theorem C83_msmeg2_prove (equ : MSMEG2 F G2) (x : List F) (y : List G2) (xc : Commit F G1) (yc : Commit F G2) :
    (equ.proveCall x y xc yc crs rng).Yields (equ.prove sch x y xc yc crs rng) := by
  rw [← msmeg2_prove_eval]
  exact Call.yields_eval _

/-- C83 for `MSMEG2::commit_and_prove`. -/
theorem C83_msmeg2_commit_and_prove (equ : MSMEG2 F G2) (x : List F) (y : List G2) :
    (equ.commitAndProveCall x y crs rng).Yields (equ.commitAndProve sch x y crs rng) := by
  have h : (equ.commitAndProveCall x y crs rng).eval = equ.commitAndProve sch x y crs rng := by
    simp only [MSMEG2.commitAndProveCall, MSMEG2.commitAndProve, Call.eval_bind, Call.eval_lift, Call.eval_pure,
      msmeg2_prove_eval sch]
    rfl
  rw [← h]
  exact Call.yields_eval _

/-- C83 for `QuadEqu::prove`. -/
theorem C83_quad_prove (equ : QuadEqu F) (x : List F) (y : List F) (xc : Commit F G1) (yc : Commit F G2) :
    (equ.proveCall x y xc yc crs rng).Yields (equ.prove sch x y xc yc crs rng) := by
  rw [← quad_prove_eval]
  exact Call.yields_eval _

/-- C83 for `QuadEqu::commit_and_prove`. -/
theorem C83_quad_commit_and_prove (equ : QuadEqu F) (x : List F) (y : List F) :
    (equ.commitAndProveCall x y crs rng).Yields (equ.commitAndProve sch x y crs rng) := by
  have h : (equ.commitAndProveCall x y crs rng).eval = equ.commitAndProve sch x y crs rng := by
    simp only [QuadEqu.commitAndProveCall, QuadEqu.commitAndProve, Call.eval_bind, Call.eval_lift, Call.eval_pure,
      quad_prove_eval sch]
    rfl
  rw [← h]
  exact Call.yields_eval _

end prove

section verify
variable [AddCommGroup GT] [Module F GT] [DecidableEq GT] (e : G1 →ₗ[F] G2 →ₗ[F] GT) (sch : Scheduler)
  (cp : CProof F G1 G2) (crs : CRS G1 G2 GT)

/-- C83 for `PPE::verify`. -/
theorem C83_ppe_verify (equ : PPE F G1 G2 GT) : (equ.verifyCall e cp crs).Yields (equ.verify e sch cp crs) := by
  have h : (equ.verifyCall e cp crs).eval = equ.verify e sch cp crs := by
    simp only [PPE.verifyCall, PPE.verify, Call.eval_bind, Call.eval_lift, Call.eval_pure, ← eval_leftMul]
    rfl
  rw [← h]
  exact Call.yields_eval _

/-- C83 for `MSMEG1::verify`. -/
theorem C83_msmeg1_verify (equ : MSMEG1 F G1) : (equ.verifyCall e cp crs).Yields (equ.verify e sch cp crs) := by
  have h : (equ.verifyCall e cp crs).eval = equ.verify e sch cp crs := by
    simp only [MSMEG1.verifyCall, MSMEG1.verify, Call.eval_bind, Call.eval_lift, Call.eval_pure, ← eval_leftMul]
    rfl
  rw [← h]
  exact Call.yields_eval _

/-- C83 for `MSMEG2::verify`. -/
theorem C83_msmeg2_verify (equ : MSMEG2 F G2) : (equ.verifyCall e cp crs).Yields (equ.verify e sch cp crs) := by
  have h : (equ.verifyCall e cp crs).eval = equ.verify e sch cp crs := by
    simp only [MSMEG2.verifyCall, MSMEG2.verify, Call.eval_bind, Call.eval_lift, Call.eval_pure, ← eval_leftMul]
    rfl
  rw [← h]
  exact Call.yields_eval _

/-- C83 for `QuadEqu::verify`. -/
theorem C83_quad_verify (equ : QuadEqu F) : (equ.verifyCall e cp crs).Yields (equ.verify e sch cp crs) := by
  have h : (equ.verifyCall e cp crs).eval = equ.verify e sch cp crs := by
    simp only [QuadEqu.verifyCall, QuadEqu.verify, Call.eval_bind, Call.eval_lift, Call.eval_pure, ← eval_leftMul]
    rfl
  rw [← h]
  exact Call.yields_eval _

end verify

/-! ### Example: a proof, a verification and a panicking verification at the same time -/

section example7
open Ex

/-- The result types of the three calls. -/
def types7 : Fin 3 → Type := ![CProof K K K × Nat, Bool, Bool]

/-- A proof of a linear equation, a verification of an empty list of proofs of it, and one of a wrong proof. -/
def calls7 : ∀ i, Call (types7 i)
  | 0 => msm1_7.commitAndProveCall [2] [3, 4] crs7 (5 : Nat)
  | 1 => msm1_7.verifyCall e7 ⟨⟨[], []⟩, ⟨[], []⟩, []⟩ crs7
  | 2 => ppe7.verifyCall e7 ⟨⟨[0], [[]]⟩, ⟨[0, 0], [[], []]⟩, [⟨[0, 0], [0, 0], .PairingProduct, []⟩]⟩ crs7

example (s : ∀ i, CallState (types7 i)) (h : Relation.ReflTransGen SysStep (sysStart calls7) s) (hs : ∀ s', ¬ SysStep s s') :
    s 0 = .done (msm1_7.commitAndProve (fun _ => seqSched) [2] [3, 4] crs7 (5 : Nat)) ∧
    s 1 = .done (.error .assertFailed) ∧ s 2 = .done (.ok false) := by
  have := (C83_calls calls7 (fun
    | 0 => msm1_7.commitAndProve (fun _ => seqSched) [2] [3, 4] crs7 (5 : Nat)
    | 1 => msm1_7.verify e7 seqSched ⟨⟨[], []⟩, ⟨[], []⟩, []⟩ crs7
    | 2 => ppe7.verify e7 seqSched ⟨⟨[0], [[]]⟩, ⟨[0, 0], [[], []]⟩, [⟨[0, 0], [0, 0], .PairingProduct, []⟩]⟩ crs7) (fun
    | 0 => C83_msmeg1_commit_and_prove _ _ _ _ _ _
    | 1 => C83_msmeg1_verify _ _ _ _ _
    | 2 => C83_ppe_verify _ _ _ _ _)).2 s h
  refine ⟨this.2 hs 0, (this.2 hs 1).trans ?_, (this.2 hs 2).trans ?_⟩
  · exact congrArg CallState.done (show msm1_7.verify e7 seqSched _ crs7 = .error .assertFailed by decide)
  · exact congrArg CallState.done (show ppe7.verify e7 seqSched _ crs7 = .ok false by decide)

end example7

end GS
