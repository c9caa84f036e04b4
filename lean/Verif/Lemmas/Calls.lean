import Verif.Spec.Calls
import Verif.Props.Concurrency
import Mathlib.Data.DFinsupp.WellFounded

/-! # Executions of calls -/

namespace GS
variable {α β : Type}

/-! ### Results -/

/-- The sequential product. -/
def seqProduct {A B β : Type} [Zero β] [Add β] (L : Matrix A) (R : Matrix B) (term : A → B → β) : Res (Matrix β) := do
  if isEmptyMat L then return []
  if isEmptyMat R then return []
  assertEq (← firstRowLen L) R.length
  let colDim ← firstRowLen R
  seqGrid L.length colDim fun i j => do
    let t ← collect (fun k => do let a ← idx2 L i k; let b ← idx2 R k j; pure (term a b)) (List.range R.length)
    pure (rustSum t)

theorem concProduct_seq {A B β : Type} [Zero β] [Add β] (L : Matrix A) (R : Matrix B) (term : A → B → β)
    (r : Res (Matrix β)) : (concProduct L R term).Returns r ↔ r = seqProduct L R term :=
  concProduct_returns L R term _ (fun _ _ _ => rfl) r

def Call.eval : Call α → Res α
  | .ret r => r
  | @Call.mul _ _ _ _ _ _ L R term k => do
    let M ← seqProduct L R term
    (k M).eval

theorem Call.eval_bind (c : Call α) (f : α → Call β) : (c >>= f).eval = (do let a ← c.eval; (f a).eval) := by
  change (c.bind f).eval = _
  induction c with
  | ret r => cases r <;> rfl
  | mul L R term k ih =>
    simp only [Call.bind, Call.eval, ih]
    cases seqProduct L R term <;> rfl

theorem Call.eval_pure (a : α) : (pure a : Call α).eval = .ok a := rfl
theorem Call.eval_lift (r : Res α) : (liftM r : Call α).eval = r := rfl

def CallState.Inv (r0 : Res α) : CallState α → Prop
  | .code c => c.eval = r0
  | @CallState.par _ _ _ _ m n ts g k => Relation.ReflTransGen (GridStep m n ts) gridStart g ∧
      ∃ R, (∀ r, (Conc.par m n ts).Returns r → r = R) ∧ (do let M ← R; (k M).eval) = r0
  | .done r => r = r0

theorem CallStep.inv {s s' : CallState α} {r0 : Res α} (h : CallStep s s') (hs : s.Inv r0) : s'.Inv r0 := by
  cases h with
  | ret r => exact hs
  | @quick A B β _ _ L R term k M h =>
    have h1 := (concProduct_seq L R term (.ok M)).mp (by rw [h]; rfl)
    simp only [CallState.Inv, Call.eval, ← h1] at hs ⊢
    exact hs
  | @quickPanic A B β _ _ L R term k p h =>
    have h1 := (concProduct_seq L R term (.error p)).mp (by rw [h]; rfl)
    simp only [CallState.Inv, Call.eval, ← h1] at hs ⊢
    exact hs
  | @fork A B β _ _ L R term k m n ts h =>
    refine ⟨.refl, seqProduct L R term, fun r hr => ?_, hs⟩
    rw [← concProduct_seq, h]
    exact hr
  | work h => exact ⟨hs.1.tail h, hs.2⟩
  | join h =>
    obtain ⟨h1, R, h2, h3⟩ := hs
    have := h2 _ ⟨_, h1, h⟩
    subst this
    exact h3
  | joinPanic h =>
    obtain ⟨h1, R, h2, h3⟩ := hs
    have := h2 _ ⟨_, h1, h⟩
    subst this
    exact h3

/-! ### Termination -/

theorem acc_done (r : Res α) : Acc (fun a b : CallState α => CallStep b a) (.done r) := ⟨_, fun _ h => nomatch h⟩

theorem acc_par [Zero β] [Add β] (m n : Nat) (ts : Nat → Nat → List (Res β)) (k : Matrix β → Call α)
    (hk : ∀ M, Acc (fun a b : CallState α => CallStep b a) (.code (k M))) (g : Nat → Row β) :
    Acc (fun a b : CallState α => CallStep b a) (.par m n ts g k) := by
  induction hl : gridSize m n ts g using Nat.strong_induction_on generalizing g with
  | _ l ih =>
    refine ⟨_, fun s' h => ?_⟩
    cases h with
    | work h => exact ih _ (hl ▸ h.size_lt) _ rfl
    | join h => exact hk _
    | joinPanic h => exact acc_done _

theorem acc_code (c : Call α) : Acc (fun a b : CallState α => CallStep b a) (.code c) := by
  induction c with
  | ret r => exact ⟨_, fun s' h => by cases h; exact acc_done _⟩
  | mul L R term k ih =>
    refine ⟨_, fun s' h => ?_⟩
    cases h with
    | quick h => exact ih _
    | quickPanic h => exact acc_done _
    | fork h => exact acc_par _ _ _ _ ih _

theorem callStep_wf : WellFounded (fun a b : CallState α => CallStep b a) := by
  refine ⟨fun s => ?_⟩
  cases s with
  | code c => exact acc_code c
  | par m n ts g k => exact acc_par _ _ _ _ (fun M => acc_code _) _
  | done r => exact acc_done r

theorem call_progress (s : CallState α) : (∃ s', CallStep s s') ∨ ∃ r, s = .done r := by
  cases s with
  | code c =>
    left
    cases c with
    | ret r => exact ⟨_, .ret r⟩
    | mul L R term k =>
      rcases h : concProduct L R term with (p | M) | ⟨m, n, ts⟩
      · exact ⟨_, .quickPanic h⟩
      · exact ⟨_, .quick h⟩
      · exact ⟨_, .fork h⟩
  | par m n ts g k =>
    left
    by_cases h : ∃ g', GridStep m n ts g g'
    · obtain ⟨g', h⟩ := h
      exact ⟨_, .work h⟩
    · obtain ⟨r, hr⟩ := grid_progress fun c' hc => h ⟨c', hc⟩
      cases r with
      | ok M => exact ⟨_, .join hr⟩
      | error p => exact ⟨_, .joinPanic hr⟩
  | done r => exact .inr ⟨r, rfl⟩

theorem call_ends (s : CallState α) : ∃ r, Relation.ReflTransGen CallStep s (.done r) := by
  induction s using callStep_wf.induction with
  | _ s ih =>
    rcases call_progress s with ⟨s', h⟩ | ⟨r, rfl⟩
    · obtain ⟨r, hr⟩ := ih s' h
      exact ⟨r, .head h hr⟩
    · exact ⟨r, .refl⟩

theorem reach_inv {s s' : CallState α} {r0 : Res α} (h : Relation.ReflTransGen CallStep s s') (hs : s.Inv r0) : s'.Inv r0 := by
  induction h with
  | refl => exact hs
  | tail _ h ih => exact h.inv ih

theorem Call.yields_eval (c : Call α) : c.Yields c.eval := by
  intro x
  have key : ∀ x, Relation.ReflTransGen CallStep (.code c) (.done x) → x = c.eval := fun x h =>
    reach_inv (r0 := c.eval) h rfl
  refine ⟨key x, fun h => ?_⟩
  obtain ⟨r, hr⟩ := call_ends (.code c)
  rw [h, ← key r hr]
  exact hr

theorem Call.Yields.eq {c : Call α} {r : Res α} (h : c.Yields r) : r = c.eval := (c.yields_eval r).mp ((h r).mpr rfl)

/-! ### Several calls -/

section sys
variable {n : Nat} {α : Fin n → Type}

theorem sysStep_wf : WellFounded (fun a b : ∀ i, CallState (α i) => SysStep b a) := by
  refine Subrelation.wf ?_ (Pi.Lex.wellFounded (ι := Fin n) (r := (· < ·)) (s := fun i a b => CallStep b a)
    fun i => callStep_wf (α := α i))
  intro a b h
  cases h with
  | call i s' h =>
    refine ⟨i, fun j hj => by simp [Function.update_of_ne hj.ne], ?_⟩
    simpa using h

theorem sys_no_infinite_run : ¬ ∃ run : Nat → ∀ i, CallState (α i), ∀ k, SysStep (run k) (run (k + 1)) := by
  rintro ⟨run, h⟩
  exact (wellFounded_iff_isEmpty_descending_chain.mp sysStep_wf).false ⟨run, h⟩

theorem sys_reach {s s' : ∀ i, CallState (α i)} (h : Relation.ReflTransGen SysStep s s') (i : Fin n) :
    Relation.ReflTransGen CallStep (s i) (s' i) := by
  induction h with
  | refl => exact .refl
  | tail _ h ih =>
    cases h with
    | call j s' h =>
      by_cases hij : i = j
      · subst hij
        simpa using ih.tail h
      · simpa [Function.update_of_ne hij] using ih

end sys

end GS
