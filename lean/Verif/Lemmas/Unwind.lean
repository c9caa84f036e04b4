import Verif.Spec.Unwind
import Verif.Lemmas.Tape
import Verif.Lemmas.Entrywise

/-!
# Lemmas about calls that leave a state behind
-/

namespace GS
set_option linter.unusedSectionVars false

namespace Unw
variable {ρ α β : Type}

@[simp] theorem liftM_eq (r : Res α) : (liftM r : Unw ρ α) = ofRes r := rfl

theorem forget_pure (a : α) (s : ρ) : forget (pure a : Unw ρ α) s = .ok (a, s) := rfl

theorem forget_bind (x : Unw ρ α) (f : α → Unw ρ β) (s : ρ) :
    forget (x >>= f) s = forget x s >>= fun p => forget (f p.1) p.2 := by
  have : (x >>= f).run s = match x s with
    | (.ok a, s) => f a s
    | (.error p, s) => (.error p, s) := rfl
  unfold forget
  rw [this]
  simp only [run]
  rcases h : x s with ⟨_ | a, s'⟩
  · rfl
  · rfl

theorem forget_ofRes_bind (r : Res α) (f : α → Unw ρ β) (s : ρ) :
    forget (ofRes r >>= f) s = r >>= fun a => forget (f a) s := by
  cases r <;> rfl

theorem forget_drawF_bind {F G1 G2 : Type} [Rng ρ F G1 G2] (f : F → Unw ρ β) (s : ρ) :
    forget (drawF (G1 := G1) (G2 := G2) >>= f) s =
      forget (f (Rng.randF (F := F) G1 G2 s).1) (Rng.randF (F := F) G1 G2 s).2 := rfl

/-- The call leaves the state alone. -/
def Keeps (x : Unw ρ α) : Prop := ∀ s, (x.run s).2 = s

theorem Keeps.pure (a : α) : Keeps (Pure.pure a : Unw ρ α) := fun _ => rfl
theorem Keeps.ofRes_bind (r : Res α) {f : α → Unw ρ β} (h : ∀ a, Keeps (f a)) : Keeps (ofRes r >>= f) := by
  intro s; cases r with
  | ok a => exact h a s
  | error p => rfl

/-- `P` decides whether the call gets beyond its checks, after which the state is `t`. -/
def Pre (P : Prop) (x : Unw ρ α) (s t : ρ) : Prop :=
  (P → (x.run s).2 = t) ∧ (¬ P → (∃ p, (x.run s).1 = .error p) ∧ (x.run s).2 = s)

theorem Pre.bind {r : Res α} {f : α → Unw ρ β} {s t : ρ} {P : α → Prop} (h : ∀ a, r = .ok a → Pre (P a) (f a) s t) :
    Pre (∃ a, r = .ok a ∧ P a) (ofRes r >>= f) s t := by
  cases r with
  | ok a =>
    have : (∃ a', (Except.ok a : Res α) = .ok a' ∧ P a') ↔ P a := by simp
    unfold Pre; rw [this]; exact h a rfl
  | error p => exact ⟨by simp, fun _ => ⟨⟨p, rfl⟩, rfl⟩⟩

theorem Pre.congr {P Q : Prop} {x : Unw ρ α} {s t : ρ} (h : P ↔ Q) (hp : Pre P x s t) : Pre Q x s t := by
  unfold Pre at *; rwa [← h]

theorem Pre.of_eq {x : Unw ρ α} {s t : ρ} (h : (x.run s).2 = t) : Pre True x s t := ⟨fun _ => h, fun h => absurd trivial h⟩

theorem run_drawF_bind {F G1 G2 : Type} [Rng ρ F G1 G2] (f : F → Unw ρ β) (s : ρ) :
    (drawF (G1 := G1) (G2 := G2) >>= f).run s =
      (f (Rng.randF (F := F) G1 G2 s).1).run (Rng.randF (F := F) G1 G2 s).2 := rfl

theorem bind_run (x : Unw ρ α) (f : α → Unw ρ β) (s : ρ) : (x >>= f).run s =
    match x.run s with
    | (.ok a, s) => (f a).run s
    | (.error p, s) => (.error p, s) := rfl

theorem run_bind_ok {x : Unw ρ α} {f : α → Unw ρ β} {s s' : ρ} {a : α} (h : x.run s = (.ok a, s')) :
    (x >>= f).run s = (f a).run s' := by
  rw [bind_run, h]

theorem run_bind_error {x : Unw ρ α} {f : α → Unw ρ β} {s s' : ρ} {p : Panic} (h : x.run s = (.error p, s')) :
    (x >>= f).run s = (.error p, s') := by
  rw [bind_run, h]

theorem run_get_bind (f : ρ → Unw ρ β) (s : ρ) : (get >>= f).run s = (f s).run s := rfl
theorem run_set_bind (t : ρ) (f : Unit → Unw ρ β) (s : ρ) : (set t >>= f).run s = (f ()).run t := rfl
theorem run_set (t s : ρ) : (set t).run s = (.ok (), t) := rfl
theorem run_ok_bind (a : α) (f : α → Unw ρ β) (s : ρ) : (ofRes (.ok a) >>= f).run s = (f a).run s := rfl
theorem run_error_bind (p : Panic) (f : α → Unw ρ β) (s : ρ) : (ofRes (.error p) >>= f).run s = (.error p, s) := rfl

variable {F G1 G2 : Type} [Rng ρ F G1 G2]

theorem run_drawRows2 (n : Nat) (s : ρ) : (drawRows2 (F := F) (G1 := G1) (G2 := G2) n).run s =
    (.ok (GS.drawRows2 (Rng.randF (F := F) G1 G2) n s).1, (GS.drawRows2 (Rng.randF (F := F) G1 G2) n s).2) := by
  induction n generalizing s with
  | zero => rfl
  | succ n ih =>
    rw [drawRows2, run_drawF_bind, run_drawF_bind]
    rw [run_bind_ok (ih _)]; rfl

theorem run_drawRows1 (n : Nat) (s : ρ) : (drawRows1 (F := F) (G1 := G1) (G2 := G2) n).run s =
    (.ok (GS.drawRows1 (Rng.randF (F := F) G1 G2) n s).1, (GS.drawRows1 (Rng.randF (F := F) G1 G2) n s).2) := by
  induction n generalizing s with
  | zero => rfl
  | succ n ih =>
    rw [drawRows1, run_drawF_bind]
    rw [run_bind_ok (ih _)]; rfl

theorem forget_ok {x : Unw ρ α} {s s' : ρ} {a : α} : x.forget s = .ok (a, s') ↔ x.run s = (.ok a, s') := by
  unfold forget
  rcases x.run s with ⟨_ | b, t⟩ <;> simp

theorem forget_error {x : Unw ρ α} {s : ρ} {p : Panic} : x.forget s = .error p ↔ (x.run s).1 = .error p := by
  unfold forget
  rcases x.run s with ⟨_ | b, t⟩ <;> simp

theorem forget_drawRows2_bind (n : Nat) (f : Matrix F → Unw ρ β) (s : ρ) :
    forget (drawRows2 (F := F) (G1 := G1) (G2 := G2) n >>= f) s =
      forget (f (GS.drawRows2 (Rng.randF (F := F) G1 G2) n s).1) (GS.drawRows2 (Rng.randF (F := F) G1 G2) n s).2 := by
  rw [forget_bind, forget_ok.mpr (run_drawRows2 n s)]; rfl

theorem forget_drawRows1_bind (n : Nat) (f : Matrix F → Unw ρ β) (s : ρ) :
    forget (drawRows1 (F := F) (G1 := G1) (G2 := G2) n >>= f) s =
      forget (f (GS.drawRows1 (Rng.randF (F := F) G1 G2) n s).1) (GS.drawRows1 (Rng.randF (F := F) G1 G2) n s).2 := by
  rw [forget_bind, forget_ok.mpr (run_drawRows1 n s)]; rfl

variable [Field F] [AddCommGroup G1] [Module F G1] [AddCommGroup G2] [Module F G2]

theorem drawRows2_state (n : Nat) (s : ρ) :
    (GS.drawRows2 (Rng.randF (F := F) G1 G2) n s).2 = (draws (F := F) G1 G2 (2 * n) s).2 := by
  rw [drawRows2_eq, draws_pairs]

theorem drawRows1_state (n : Nat) (s : ρ) :
    (GS.drawRows1 (Rng.randF (F := F) G1 G2) n s).2 = (draws (F := F) G1 G2 n s).2 := by
  rw [drawRows1_eq, draws_eq]

end Unw

/-- Finish a goal `Keeps _`. -/
macro "keeps" : tactic => `(tactic| (
  try simp only [Unw.liftM_eq]
  repeat (first | exact Unw.Keeps.pure _ | (refine Unw.Keeps.ofRes_bind _ fun _ => ?_))))

variable {F G1 G2 GT : Type} [Field F] [AddCommGroup G1] [Module F G1] [AddCommGroup G2] [Module F G2]
variable {ρ : Type} [Rng ρ F G1 G2]

/-! ## Agreement -/

theorem commitG1_forget (x : G1) (key : CRS G1 G2 GT) (s : ρ) :
    (commitG1U (F := F) x key).forget s = commitG1 x key s := by
  simp only [commitG1U, commitG1, Unw.liftM_eq, Unw.forget_ofRes_bind, Unw.forget_drawF_bind, Unw.forget_pure]; rfl

theorem commitG1_state (x : G1) (key : CRS G1 G2 GT) (s : ρ) :
    ((commitG1U (F := F) x key).run s).2 = (draws (F := F) G1 G2 2 s).2 := by
  unfold commitG1U
  simp only [Unw.liftM_eq, Unw.run_drawF_bind]
  refine Eq.trans (Unw.Keeps.ofRes_bind _ (fun _ => ?_) _) ?_
  · keeps
  · rfl

theorem commitG2_forget (x : G2) (key : CRS G1 G2 GT) (s : ρ) :
    (commitG2U (F := F) x key).forget s = commitG2 x key s := by
  simp only [commitG2U, commitG2, Unw.liftM_eq, Unw.forget_ofRes_bind, Unw.forget_drawF_bind, Unw.forget_pure]; rfl

theorem commitG2_state (x : G2) (key : CRS G1 G2 GT) (s : ρ) :
    ((commitG2U (F := F) x key).run s).2 = (draws (F := F) G1 G2 2 s).2 := by
  unfold commitG2U
  simp only [Unw.liftM_eq, Unw.run_drawF_bind]
  refine Eq.trans (Unw.Keeps.ofRes_bind _ (fun _ => ?_) _) ?_
  · keeps
  · rfl

theorem commitScalarToB1_forget (x : F) (key : CRS G1 G2 GT) (s : ρ) :
    (commitScalarToB1U x key).forget s = commitScalarToB1 x key s := by
  simp only [commitScalarToB1U, commitScalarToB1, Unw.liftM_eq, Unw.forget_ofRes_bind, Unw.forget_drawF_bind, Unw.forget_pure]; rfl

theorem commitScalarToB1_state (x : F) (key : CRS G1 G2 GT) (s : ρ) :
    ((commitScalarToB1U x key).run s).2 = (draws (F := F) G1 G2 1 s).2 := by
  unfold commitScalarToB1U
  simp only [Unw.liftM_eq, Unw.run_drawF_bind]
  refine Eq.trans (Unw.Keeps.ofRes_bind _ (fun _ => ?_) _) ?_
  · keeps
  · rfl

theorem commitScalarToB2_forget (x : F) (key : CRS G1 G2 GT) (s : ρ) :
    (commitScalarToB2U x key).forget s = commitScalarToB2 x key s := by
  simp only [commitScalarToB2U, commitScalarToB2, Unw.liftM_eq, Unw.forget_ofRes_bind, Unw.forget_drawF_bind, Unw.forget_pure]; rfl

theorem commitScalarToB2_state (x : F) (key : CRS G1 G2 GT) (s : ρ) :
    ((commitScalarToB2U x key).run s).2 = (draws (F := F) G1 G2 1 s).2 := by
  unfold commitScalarToB2U
  simp only [Unw.liftM_eq, Unw.run_drawF_bind]
  refine Eq.trans (Unw.Keeps.ofRes_bind _ (fun _ => ?_) _) ?_
  · keeps
  · rfl

theorem batchCommitG1_forget (x : List G1) (key : CRS G1 G2 GT) (s : ρ) :
    (batchCommitG1U (F := F) x key).forget s = batchCommitG1 x key s := by
  simp only [batchCommitG1U, batchCommitG1, Unw.liftM_eq, Unw.forget_ofRes_bind, Unw.forget_drawRows2_bind,
    Unw.forget_pure]; rfl

theorem batchCommitG1_state (x : List G1) (key : CRS G1 G2 GT) (s : ρ) :
    ((batchCommitG1U (F := F) x key).run s).2 = (draws (F := F) G1 G2 (2 * x.length) s).2 := by
  unfold batchCommitG1U
  simp only [Unw.liftM_eq]
  rw [Unw.run_bind_ok (Unw.run_drawRows2 _ _), ← Unw.drawRows2_state]
  refine Eq.trans (Unw.Keeps.ofRes_bind _ (fun _ => ?_) _) ?_
  · keeps
  · rfl

theorem batchCommitG1_total {x : List G1} {key : CRS G1 G2 GT} {s : ρ} :
    (∃ c, batchCommitG1 (F := F) x key s = .ok c) ↔ x ≠ [] ∧ key.u.length = 2 := by
  constructor
  · rintro ⟨c, h⟩
    rw [batchCommitG1_iff] at h
    obtain ⟨hx, h⟩ := h
    refine ⟨hx, ?_⟩
    obtain ⟨u0, u1, hu, -⟩ := h
    rw [hu]; simp
  · rintro ⟨hx, hu⟩
    rcases hk : key.u with _ | ⟨u0, _ | ⟨u1, u'⟩⟩
    · simp [hk] at hu
    · simp [hk] at hu
    · obtain rfl : u' = [] := by simpa [hk] using hu
      exact ⟨_, batchCommitG1_iff.mpr ⟨hx, u0, u1, hk, rfl⟩⟩

theorem batchCommitG1_fit {x : List G1} {key : CRS G1 G2 GT} {s : ρ} {c : Commit F G1 × ρ}
    (h : batchCommitG1 (F := F) x key s = .ok c) : c.1.rand.length = x.length ∧ FirstRowWidest 2 c.1.rand := by
  rw [batchCommitG1_iff] at h
  obtain ⟨hx, u0, u1, h⟩ := h
  have hr : ∃ l : List (F × F), l.length = x.length ∧ c.1.rand = l.map fun p => [p.1, p.2] := by
    obtain ⟨hu, rfl⟩ := h
    exact ⟨_, drawPairs_length _ _ _, rfl⟩
  obtain ⟨l, hl, hr⟩ := hr
  rw [hr]
  rcases l with _ | ⟨a, l⟩
  · exact absurd (List.length_eq_zero_iff.mp hl.symm) hx
  · refine ⟨by simpa using hl, ⟨_, rfl, rfl⟩, ?_⟩
    simp only [List.mem_map]
    rintro _ ⟨p, -, rfl⟩; simp

theorem batchCommitG2_forget (x : List G2) (key : CRS G1 G2 GT) (s : ρ) :
    (batchCommitG2U (F := F) x key).forget s = batchCommitG2 x key s := by
  simp only [batchCommitG2U, batchCommitG2, Unw.liftM_eq, Unw.forget_ofRes_bind, Unw.forget_drawRows2_bind,
    Unw.forget_pure]; rfl

theorem batchCommitG2_state (x : List G2) (key : CRS G1 G2 GT) (s : ρ) :
    ((batchCommitG2U (F := F) x key).run s).2 = (draws (F := F) G1 G2 (2 * x.length) s).2 := by
  unfold batchCommitG2U
  simp only [Unw.liftM_eq]
  rw [Unw.run_bind_ok (Unw.run_drawRows2 _ _), ← Unw.drawRows2_state]
  refine Eq.trans (Unw.Keeps.ofRes_bind _ (fun _ => ?_) _) ?_
  · keeps
  · rfl

theorem batchCommitG2_total {x : List G2} {key : CRS G1 G2 GT} {s : ρ} :
    (∃ c, batchCommitG2 (F := F) x key s = .ok c) ↔ x ≠ [] ∧ key.v.length = 2 := by
  constructor
  · rintro ⟨c, h⟩
    rw [batchCommitG2_iff] at h
    obtain ⟨hx, h⟩ := h
    refine ⟨hx, ?_⟩
    obtain ⟨u0, u1, hu, -⟩ := h
    rw [hu]; simp
  · rintro ⟨hx, hu⟩
    rcases hk : key.v with _ | ⟨u0, _ | ⟨u1, u'⟩⟩
    · simp [hk] at hu
    · simp [hk] at hu
    · obtain rfl : u' = [] := by simpa [hk] using hu
      exact ⟨_, batchCommitG2_iff.mpr ⟨hx, u0, u1, hk, rfl⟩⟩

theorem batchCommitG2_fit {x : List G2} {key : CRS G1 G2 GT} {s : ρ} {c : Commit F G2 × ρ}
    (h : batchCommitG2 (F := F) x key s = .ok c) : c.1.rand.length = x.length ∧ FirstRowWidest 2 c.1.rand := by
  rw [batchCommitG2_iff] at h
  obtain ⟨hx, u0, u1, h⟩ := h
  have hr : ∃ l : List (F × F), l.length = x.length ∧ c.1.rand = l.map fun p => [p.1, p.2] := by
    obtain ⟨hu, rfl⟩ := h
    exact ⟨_, drawPairs_length _ _ _, rfl⟩
  obtain ⟨l, hl, hr⟩ := hr
  rw [hr]
  rcases l with _ | ⟨a, l⟩
  · exact absurd (List.length_eq_zero_iff.mp hl.symm) hx
  · refine ⟨by simpa using hl, ⟨_, rfl, rfl⟩, ?_⟩
    simp only [List.mem_map]
    rintro _ ⟨p, -, rfl⟩; simp

theorem batchCommitScalarToB1_forget (x : List F) (key : CRS G1 G2 GT) (s : ρ) :
    (batchCommitScalarToB1U (F := F) x key).forget s = batchCommitScalarToB1 x key s := by
  simp only [batchCommitScalarToB1U, batchCommitScalarToB1, Unw.liftM_eq, Unw.forget_ofRes_bind, Unw.forget_drawRows1_bind,
    Unw.forget_pure]; rfl

theorem batchCommitScalarToB1_state (x : List F) (key : CRS G1 G2 GT) (s : ρ) :
    ((batchCommitScalarToB1U (F := F) x key).run s).2 = (draws (F := F) G1 G2 (x.length) s).2 := by
  unfold batchCommitScalarToB1U
  simp only [Unw.liftM_eq]
  rw [Unw.run_bind_ok (Unw.run_drawRows1 _ _), ← Unw.drawRows1_state]
  refine Eq.trans (Unw.Keeps.ofRes_bind _ (fun _ => ?_) _) ?_
  · keeps
  · rfl

theorem batchCommitScalarToB1_total {x : List F} {key : CRS G1 G2 GT} {s : ρ} :
    (∃ c, batchCommitScalarToB1 (F := F) x key s = .ok c) ↔ x ≠ [] ∧ 2 ≤ key.u.length := by
  constructor
  · rintro ⟨c, h⟩
    rw [batchCommitScalarToB1_iff] at h
    obtain ⟨hx, h⟩ := h
    refine ⟨hx, ?_⟩
    obtain ⟨u0, u1, u', hu, -⟩ := h
    rw [hu]; simp
  · rintro ⟨hx, hu⟩
    rcases hk : key.u with _ | ⟨u0, _ | ⟨u1, u'⟩⟩
    · simp [hk] at hu
    · simp [hk] at hu
    · exact ⟨_, batchCommitScalarToB1_iff.mpr ⟨hx, u0, u1, u', hk, rfl⟩⟩

theorem batchCommitScalarToB1_fit {x : List F} {key : CRS G1 G2 GT} {s : ρ} {c : Commit F G1 × ρ}
    (h : batchCommitScalarToB1 (F := F) x key s = .ok c) : c.1.rand.length = x.length ∧ FirstRowWidest 1 c.1.rand := by
  rw [batchCommitScalarToB1_iff] at h
  obtain ⟨hx, u0, u1, h⟩ := h
  have hr : ∃ l : List (F), l.length = x.length ∧ c.1.rand = l.map fun p => [p] := by
    obtain ⟨u', hu, rfl⟩ := h
    exact ⟨_, drawF_length _ _ _, rfl⟩
  obtain ⟨l, hl, hr⟩ := hr
  rw [hr]
  rcases l with _ | ⟨a, l⟩
  · exact absurd (List.length_eq_zero_iff.mp hl.symm) hx
  · refine ⟨by simpa using hl, ⟨_, rfl, rfl⟩, ?_⟩
    simp only [List.mem_map]
    rintro _ ⟨p, -, rfl⟩; simp

theorem batchCommitScalarToB2_forget (x : List F) (key : CRS G1 G2 GT) (s : ρ) :
    (batchCommitScalarToB2U (F := F) x key).forget s = batchCommitScalarToB2 x key s := by
  simp only [batchCommitScalarToB2U, batchCommitScalarToB2, Unw.liftM_eq, Unw.forget_ofRes_bind, Unw.forget_drawRows1_bind,
    Unw.forget_pure]; rfl

theorem batchCommitScalarToB2_state (x : List F) (key : CRS G1 G2 GT) (s : ρ) :
    ((batchCommitScalarToB2U (F := F) x key).run s).2 = (draws (F := F) G1 G2 (x.length) s).2 := by
  unfold batchCommitScalarToB2U
  simp only [Unw.liftM_eq]
  rw [Unw.run_bind_ok (Unw.run_drawRows1 _ _), ← Unw.drawRows1_state]
  refine Eq.trans (Unw.Keeps.ofRes_bind _ (fun _ => ?_) _) ?_
  · keeps
  · rfl

theorem batchCommitScalarToB2_total {x : List F} {key : CRS G1 G2 GT} {s : ρ} :
    (∃ c, batchCommitScalarToB2 (F := F) x key s = .ok c) ↔ x ≠ [] ∧ 2 ≤ key.v.length := by
  constructor
  · rintro ⟨c, h⟩
    rw [batchCommitScalarToB2_iff] at h
    obtain ⟨hx, h⟩ := h
    refine ⟨hx, ?_⟩
    obtain ⟨u0, u1, u', hu, -⟩ := h
    rw [hu]; simp
  · rintro ⟨hx, hu⟩
    rcases hk : key.v with _ | ⟨u0, _ | ⟨u1, u'⟩⟩
    · simp [hk] at hu
    · simp [hk] at hu
    · exact ⟨_, batchCommitScalarToB2_iff.mpr ⟨hx, u0, u1, u', hk, rfl⟩⟩

theorem batchCommitScalarToB2_fit {x : List F} {key : CRS G1 G2 GT} {s : ρ} {c : Commit F G2 × ρ}
    (h : batchCommitScalarToB2 (F := F) x key s = .ok c) : c.1.rand.length = x.length ∧ FirstRowWidest 1 c.1.rand := by
  rw [batchCommitScalarToB2_iff] at h
  obtain ⟨hx, u0, u1, h⟩ := h
  have hr : ∃ l : List (F), l.length = x.length ∧ c.1.rand = l.map fun p => [p] := by
    obtain ⟨u', hu, rfl⟩ := h
    exact ⟨_, drawF_length _ _ _, rfl⟩
  obtain ⟨l, hl, hr⟩ := hr
  rw [hr]
  rcases l with _ | ⟨a, l⟩
  · exact absurd (List.length_eq_zero_iff.mp hl.symm) hx
  · refine ⟨by simpa using hl, ⟨_, rfl, rfl⟩, ?_⟩
    simp only [List.mem_map]
    rintro _ ⟨p, -, rfl⟩; simp

theorem PPE.prove_forget (sch : Nat → Scheduler) (equ : PPE F G1 G2 GT) (x : List G1) (y : List G2) (cx : Commit F G1)
    (cy : Commit F G2) (crs : CRS G1 G2 GT) (s : ρ) :
    (equ.proveU sch x y cx cy crs).forget s = equ.prove sch x y cx cy crs s := by
  simp only [PPE.proveU, PPE.prove, Unw.liftM_eq, Unw.forget_ofRes_bind, Unw.forget_drawF_bind,
    Unw.forget_pure]; rfl

theorem PPE.cap_forget (sch : Nat → Scheduler) (equ : PPE F G1 G2 GT) (x : List G1) (y : List G2) (crs : CRS G1 G2 GT) (s : ρ) :
    (equ.commitAndProveU sch x y crs).forget s = equ.commitAndProve sch x y crs s := by
  simp only [PPE.commitAndProveU, PPE.commitAndProve, Unw.forget_bind, batchCommitG1_forget, batchCommitG2_forget, PPE.prove_forget,
    Unw.forget_pure]; rfl

theorem MSMEG1.prove_forget (sch : Nat → Scheduler) (equ : MSMEG1 F G1) (x : List G1) (y : List F) (cx : Commit F G1)
    (cy : Commit F G2) (crs : CRS G1 G2 GT) (s : ρ) :
    (equ.proveU sch x y cx cy crs).forget s = equ.prove sch x y cx cy crs s := by
  simp only [MSMEG1.proveU, MSMEG1.prove, Unw.liftM_eq, Unw.forget_ofRes_bind, Unw.forget_drawF_bind,
    Unw.forget_pure]; rfl

theorem MSMEG1.cap_forget (sch : Nat → Scheduler) (equ : MSMEG1 F G1) (x : List G1) (y : List F) (crs : CRS G1 G2 GT) (s : ρ) :
    (equ.commitAndProveU sch x y crs).forget s = equ.commitAndProve sch x y crs s := by
  simp only [MSMEG1.commitAndProveU, MSMEG1.commitAndProve, Unw.forget_bind, batchCommitG1_forget, batchCommitScalarToB2_forget, MSMEG1.prove_forget,
    Unw.forget_pure]; rfl

theorem MSMEG2.prove_forget (sch : Nat → Scheduler) (equ : MSMEG2 F G2) (x : List F) (y : List G2) (cx : Commit F G1)
    (cy : Commit F G2) (crs : CRS G1 G2 GT) (s : ρ) :
    (equ.proveU sch x y cx cy crs).forget s = equ.prove sch x y cx cy crs s := by
  simp only [MSMEG2.proveU, MSMEG2.prove, Unw.liftM_eq, Unw.forget_ofRes_bind, Unw.forget_drawF_bind,
    Unw.forget_pure]; rfl

theorem MSMEG2.cap_forget (sch : Nat → Scheduler) (equ : MSMEG2 F G2) (x : List F) (y : List G2) (crs : CRS G1 G2 GT) (s : ρ) :
    (equ.commitAndProveU sch x y crs).forget s = equ.commitAndProve sch x y crs s := by
  simp only [MSMEG2.commitAndProveU, MSMEG2.commitAndProve, Unw.forget_bind, batchCommitScalarToB1_forget, batchCommitG2_forget, MSMEG2.prove_forget,
    Unw.forget_pure]; rfl

theorem QuadEqu.prove_forget (sch : Nat → Scheduler) (equ : QuadEqu F) (x : List F) (y : List F) (cx : Commit F G1)
    (cy : Commit F G2) (crs : CRS G1 G2 GT) (s : ρ) :
    (equ.proveU sch x y cx cy crs).forget s = equ.prove sch x y cx cy crs s := by
  simp only [QuadEqu.proveU, QuadEqu.prove, Unw.liftM_eq, Unw.forget_ofRes_bind, Unw.forget_drawF_bind,
    Unw.forget_pure]; rfl

theorem QuadEqu.cap_forget (sch : Nat → Scheduler) (equ : QuadEqu F) (x : List F) (y : List F) (crs : CRS G1 G2 GT) (s : ρ) :
    (equ.commitAndProveU sch x y crs).forget s = equ.commitAndProve sch x y crs s := by
  simp only [QuadEqu.commitAndProveU, QuadEqu.commitAndProve, Unw.forget_bind, batchCommitScalarToB1_forget, batchCommitScalarToB2_forget, QuadEqu.prove_forget,
    Unw.forget_pure]; rfl

theorem transpose_isOk {M : Matrix F} {c : Nat} {r : List F} (h : idx M 0 = .ok r) (hc : r.length = c) :
    (∃ t, FieldMat.transpose M = .ok t) ↔ FirstRowWidest c M := by
  rw [idx_eq_ok, ← List.head?_eq_getElem?] at h
  constructor
  · rintro ⟨t, ht⟩
    obtain ⟨n, h1, h2, -⟩ := transposeG_iff.mp ht
    rw [firstRowLen_iff] at h1
    obtain ⟨r', hr', rfl⟩ := h1
    rw [← List.head?_eq_getElem?, h] at hr'
    cases hr'
    exact ⟨⟨r, h, hc⟩, fun x hx => hc ▸ h2 x hx⟩
  · rintro ⟨-, h2⟩
    exact ⟨_, transposeG_iff.mpr ⟨c, firstRowLen_iff.mpr ⟨r, by rw [← List.head?_eq_getElem?, h], hc⟩, h2, rfl⟩⟩

theorem argsFit_iff {cx cy nx ny : Nat} {gamma X Y : Matrix F} :
    (∃ u, assertEq nx X.length = .ok u ∧ ∃ u, assertEq gamma.length X.length = .ok u ∧
      ∃ r, idx X 0 = .ok r ∧ ∃ u, assertEq r.length cx = .ok u ∧ ∃ u, assertEq ny Y.length = .ok u ∧
      ∃ g, idx gamma 0 = .ok g ∧ ∃ u, assertEq g.length Y.length = .ok u ∧
      ∃ r, idx Y 0 = .ok r ∧ ∃ u, assertEq r.length cy = .ok u ∧
      ∃ t, FieldMat.transpose X = .ok t ∧ ∃ t, FieldMat.transpose Y = .ok t ∧ True) ↔
    ArgsFit cx cy nx ny gamma X Y := by
  simp only [assertEq_ok_iff, exists_const, and_true]
  constructor
  · rintro ⟨h1, h2, r, hr, hrc, h3, g, hg, hgc, r', hr', hrc', t, hX, hY⟩
    exact ⟨h1.symm, (transpose_isOk hr hrc).mp ⟨t, hX⟩, h3.symm,
      (transpose_isOk hr' hrc').mp hY, h2.trans h1.symm, g,
      by rwa [List.head?_eq_getElem?, ← idx_eq_ok], hgc.trans h3.symm⟩
  · rintro ⟨h1, hX, h3, hY, h2, g, hg, hgc⟩
    obtain ⟨⟨r, hr, hrc⟩, -⟩ := id hX
    obtain ⟨⟨r', hr', hrc'⟩, -⟩ := id hY
    rw [List.head?_eq_getElem?, ← idx_eq_ok] at hr hr' hg
    obtain ⟨t, ht⟩ := (transpose_isOk hr hrc).mpr hX
    exact ⟨h1.symm, h2.trans h1.symm, r, hr, hrc, h3.symm, g, hg, hgc.trans h3.symm, r', hr', hrc', t, ht,
      (transpose_isOk hr' hrc').mpr hY⟩

theorem PPE.prove_pre (sch : Nat → Scheduler) (equ : PPE F G1 G2 GT) (x : List G1) (y : List G2) (cx : Commit F G1)
    (cy : Commit F G2) (crs : CRS G1 G2 GT) (s : ρ) :
    Unw.Pre (ArgsFit 2 2 x.length y.length equ.gamma cx.rand cy.rand) (equ.proveU sch x y cx cy crs) s
      (draws (F := F) G1 G2 4 s).2 := by
  unfold PPE.proveU
  simp only [Unw.liftM_eq]
  refine Unw.Pre.congr argsFit_iff (Unw.Pre.bind fun _ _ => Unw.Pre.bind fun _ _ => Unw.Pre.bind fun _ _ =>
    Unw.Pre.bind fun _ _ => Unw.Pre.bind fun _ _ => Unw.Pre.bind fun _ _ => Unw.Pre.bind fun _ _ =>
    Unw.Pre.bind fun _ _ => Unw.Pre.bind fun _ _ => Unw.Pre.bind fun _ _ => Unw.Pre.bind fun _ _ =>
    Unw.Pre.of_eq ?_)
  simp only [Unw.run_drawF_bind]
  refine Eq.trans (Unw.Keeps.ofRes_bind _ (fun _ => ?_) _) ?_
  · keeps
  · rfl

theorem PPE.cap_state (sch : Nat → Scheduler) (equ : PPE F G1 G2 GT) (x : List G1) (y : List G2) (crs : CRS G1 G2 GT) (s : ρ) :
    (¬ (x ≠ [] ∧ crs.u.length = 2) → ((equ.commitAndProveU sch x y crs).run s).2 = (draws (F := F) G1 G2 (2 * x.length) s).2) ∧
    ((x ≠ [] ∧ crs.u.length = 2) → ¬ (y ≠ [] ∧ crs.v.length = 2 ∧ equ.gamma.length = x.length ∧ ∃ g, equ.gamma.head? = some g ∧ g.length = y.length) →
      ((equ.commitAndProveU sch x y crs).run s).2 = (draws (F := F) G1 G2 (2 * x.length + 2 * y.length) s).2) ∧
    ((x ≠ [] ∧ crs.u.length = 2) → (y ≠ [] ∧ crs.v.length = 2 ∧ equ.gamma.length = x.length ∧ ∃ g, equ.gamma.head? = some g ∧ g.length = y.length) →
      ((equ.commitAndProveU sch x y crs).run s).2 = (draws (F := F) G1 G2 (2 * x.length + 2 * y.length + 4) s).2) := by
  have hxs := batchCommitG1_state (F := F) x crs s
  have hxf := batchCommitG1_forget (F := F) x crs s
  have hxt := batchCommitG1_total (F := F) (x := x) (key := crs) (s := s)
  rcases hx : (batchCommitG1U (F := F) x crs).run s with ⟨p | cx, s1⟩
  · have hst : ((equ.commitAndProveU sch x y crs).run s).2 = s1 := by
      unfold PPE.commitAndProveU; rw [Unw.run_bind_error hx]
    rw [hx] at hxs
    have hno : ¬ ∃ c, batchCommitG1 (F := F) x crs s = .ok c := by
      rw [← hxf, Unw.forget_error.mpr (by rw [hx])]; simp
    rw [hxt] at hno
    exact ⟨fun _ => hst.trans hxs, fun h => absurd h hno, fun h => absurd h hno⟩
  · rw [Unw.forget_ok.mpr hx] at hxf
    have hyes := hxt.mp ⟨_, hxf.symm⟩
    obtain ⟨fx1, fx2⟩ := batchCommitG1_fit hxf.symm
    rw [hx] at hxs
    refine ⟨fun h => absurd hyes h, fun _ => ?_, fun _ => ?_⟩
    all_goals
      have hys := batchCommitG2_state (F := F) y crs s1
      have hyf := batchCommitG2_forget (F := F) y crs s1
      have hyt := batchCommitG2_total (F := F) (x := y) (key := crs) (s := s1)
      rcases hy : (batchCommitG2U (F := F) y crs).run s1 with ⟨p | cy, s2⟩
    · intro _
      unfold PPE.commitAndProveU; rw [Unw.run_bind_ok hx, Unw.run_bind_error hy]
      rw [hy] at hys
      rw [draws_add, ← hxs]; exact hys
    · intro hg
      rw [Unw.forget_ok.mpr hy] at hyf
      have hyes' := hyt.mp ⟨_, hyf.symm⟩
      rw [hy] at hys
      have hnf : ¬ ArgsFit 2 2 x.length y.length equ.gamma cx.rand cy.rand :=
        fun h => hg ⟨hyes'.1, hyes'.2, h.grows, h.gcols⟩
      obtain ⟨⟨p, hp⟩, hs⟩ := (equ.prove_pre sch x y cx cy crs s2).2 hnf
      unfold PPE.commitAndProveU
      rw [Unw.run_bind_ok hx, Unw.run_bind_ok hy, Unw.run_bind_error (Prod.ext hp hs)]
      rw [draws_add, ← hxs]; exact hys
    · intro hg
      have hno : ¬ ∃ c, batchCommitG2 (F := F) y crs s1 = .ok c := by
        rw [← hyf, Unw.forget_error.mpr (by rw [hy])]; simp
      exact absurd (hyt.mpr ⟨hg.1, hg.2.1⟩) hno
    · intro hg
      rw [Unw.forget_ok.mpr hy] at hyf
      obtain ⟨fy1, fy2⟩ := batchCommitG2_fit hyf.symm
      rw [hy] at hys
      have hs := (equ.prove_pre sch x y cx cy crs s2).1 ⟨fx1, fx2, fy1, fy2, hg.2.2.1, hg.2.2.2⟩
      have hk : ((equ.commitAndProveU sch x y crs).run s).2 = ((equ.proveU sch x y cx cy crs).run s2).2 := by
        unfold PPE.commitAndProveU
        rw [Unw.run_bind_ok hx, Unw.run_bind_ok hy, Unw.bind_run]
        rcases (equ.proveU sch x y cx cy crs).run s2 with ⟨_ | _, _⟩ <;> rfl
      rw [hk, hs, draws_add, draws_add, ← hxs]
      simp only at hys ⊢
      rw [hys]

theorem MSMEG1.prove_pre (sch : Nat → Scheduler) (equ : MSMEG1 F G1) (x : List G1) (y : List F) (cx : Commit F G1)
    (cy : Commit F G2) (crs : CRS G1 G2 GT) (s : ρ) :
    Unw.Pre (ArgsFit 2 1 x.length y.length equ.gamma cx.rand cy.rand) (equ.proveU sch x y cx cy crs) s
      (draws (F := F) G1 G2 2 s).2 := by
  unfold MSMEG1.proveU
  simp only [Unw.liftM_eq]
  refine Unw.Pre.congr argsFit_iff (Unw.Pre.bind fun _ _ => Unw.Pre.bind fun _ _ => Unw.Pre.bind fun _ _ =>
    Unw.Pre.bind fun _ _ => Unw.Pre.bind fun _ _ => Unw.Pre.bind fun _ _ => Unw.Pre.bind fun _ _ =>
    Unw.Pre.bind fun _ _ => Unw.Pre.bind fun _ _ => Unw.Pre.bind fun _ _ => Unw.Pre.bind fun _ _ =>
    Unw.Pre.of_eq ?_)
  simp only [Unw.run_drawF_bind]
  refine Eq.trans (Unw.Keeps.ofRes_bind _ (fun _ => ?_) _) ?_
  · keeps
  · rfl

theorem MSMEG1.cap_state (sch : Nat → Scheduler) (equ : MSMEG1 F G1) (x : List G1) (y : List F) (crs : CRS G1 G2 GT) (s : ρ) :
    (¬ (x ≠ [] ∧ crs.u.length = 2) → ((equ.commitAndProveU sch x y crs).run s).2 = (draws (F := F) G1 G2 (2 * x.length) s).2) ∧
    ((x ≠ [] ∧ crs.u.length = 2) → ¬ (y ≠ [] ∧ 2 ≤ crs.v.length ∧ equ.gamma.length = x.length ∧ ∃ g, equ.gamma.head? = some g ∧ g.length = y.length) →
      ((equ.commitAndProveU sch x y crs).run s).2 = (draws (F := F) G1 G2 (2 * x.length + y.length) s).2) ∧
    ((x ≠ [] ∧ crs.u.length = 2) → (y ≠ [] ∧ 2 ≤ crs.v.length ∧ equ.gamma.length = x.length ∧ ∃ g, equ.gamma.head? = some g ∧ g.length = y.length) →
      ((equ.commitAndProveU sch x y crs).run s).2 = (draws (F := F) G1 G2 (2 * x.length + y.length + 2) s).2) := by
  have hxs := batchCommitG1_state (F := F) x crs s
  have hxf := batchCommitG1_forget (F := F) x crs s
  have hxt := batchCommitG1_total (F := F) (x := x) (key := crs) (s := s)
  rcases hx : (batchCommitG1U (F := F) x crs).run s with ⟨p | cx, s1⟩
  · have hst : ((equ.commitAndProveU sch x y crs).run s).2 = s1 := by
      unfold MSMEG1.commitAndProveU; rw [Unw.run_bind_error hx]
    rw [hx] at hxs
    have hno : ¬ ∃ c, batchCommitG1 (F := F) x crs s = .ok c := by
      rw [← hxf, Unw.forget_error.mpr (by rw [hx])]; simp
    rw [hxt] at hno
    exact ⟨fun _ => hst.trans hxs, fun h => absurd h hno, fun h => absurd h hno⟩
  · rw [Unw.forget_ok.mpr hx] at hxf
    have hyes := hxt.mp ⟨_, hxf.symm⟩
    obtain ⟨fx1, fx2⟩ := batchCommitG1_fit hxf.symm
    rw [hx] at hxs
    refine ⟨fun h => absurd hyes h, fun _ => ?_, fun _ => ?_⟩
    all_goals
      have hys := batchCommitScalarToB2_state (F := F) y crs s1
      have hyf := batchCommitScalarToB2_forget (F := F) y crs s1
      have hyt := batchCommitScalarToB2_total (F := F) (x := y) (key := crs) (s := s1)
      rcases hy : (batchCommitScalarToB2U (F := F) y crs).run s1 with ⟨p | cy, s2⟩
    · intro _
      unfold MSMEG1.commitAndProveU; rw [Unw.run_bind_ok hx, Unw.run_bind_error hy]
      rw [hy] at hys
      rw [draws_add, ← hxs]; exact hys
    · intro hg
      rw [Unw.forget_ok.mpr hy] at hyf
      have hyes' := hyt.mp ⟨_, hyf.symm⟩
      rw [hy] at hys
      have hnf : ¬ ArgsFit 2 1 x.length y.length equ.gamma cx.rand cy.rand :=
        fun h => hg ⟨hyes'.1, hyes'.2, h.grows, h.gcols⟩
      obtain ⟨⟨p, hp⟩, hs⟩ := (equ.prove_pre sch x y cx cy crs s2).2 hnf
      unfold MSMEG1.commitAndProveU
      rw [Unw.run_bind_ok hx, Unw.run_bind_ok hy, Unw.run_bind_error (Prod.ext hp hs)]
      rw [draws_add, ← hxs]; exact hys
    · intro hg
      have hno : ¬ ∃ c, batchCommitScalarToB2 (F := F) y crs s1 = .ok c := by
        rw [← hyf, Unw.forget_error.mpr (by rw [hy])]; simp
      exact absurd (hyt.mpr ⟨hg.1, hg.2.1⟩) hno
    · intro hg
      rw [Unw.forget_ok.mpr hy] at hyf
      obtain ⟨fy1, fy2⟩ := batchCommitScalarToB2_fit hyf.symm
      rw [hy] at hys
      have hs := (equ.prove_pre sch x y cx cy crs s2).1 ⟨fx1, fx2, fy1, fy2, hg.2.2.1, hg.2.2.2⟩
      have hk : ((equ.commitAndProveU sch x y crs).run s).2 = ((equ.proveU sch x y cx cy crs).run s2).2 := by
        unfold MSMEG1.commitAndProveU
        rw [Unw.run_bind_ok hx, Unw.run_bind_ok hy, Unw.bind_run]
        rcases (equ.proveU sch x y cx cy crs).run s2 with ⟨_ | _, _⟩ <;> rfl
      rw [hk, hs, draws_add, draws_add, ← hxs]
      simp only at hys ⊢
      rw [hys]

theorem MSMEG2.prove_pre (sch : Nat → Scheduler) (equ : MSMEG2 F G2) (x : List F) (y : List G2) (cx : Commit F G1)
    (cy : Commit F G2) (crs : CRS G1 G2 GT) (s : ρ) :
    Unw.Pre (ArgsFit 1 2 x.length y.length equ.gamma cx.rand cy.rand) (equ.proveU sch x y cx cy crs) s
      (draws (F := F) G1 G2 2 s).2 := by
  unfold MSMEG2.proveU
  simp only [Unw.liftM_eq]
  refine Unw.Pre.congr argsFit_iff (Unw.Pre.bind fun _ _ => Unw.Pre.bind fun _ _ => Unw.Pre.bind fun _ _ =>
    Unw.Pre.bind fun _ _ => Unw.Pre.bind fun _ _ => Unw.Pre.bind fun _ _ => Unw.Pre.bind fun _ _ =>
    Unw.Pre.bind fun _ _ => Unw.Pre.bind fun _ _ => Unw.Pre.bind fun _ _ => Unw.Pre.bind fun _ _ =>
    Unw.Pre.of_eq ?_)
  simp only [Unw.run_drawF_bind]
  refine Eq.trans (Unw.Keeps.ofRes_bind _ (fun _ => ?_) _) ?_
  · keeps
  · rfl

theorem MSMEG2.cap_state (sch : Nat → Scheduler) (equ : MSMEG2 F G2) (x : List F) (y : List G2) (crs : CRS G1 G2 GT) (s : ρ) :
    (¬ (x ≠ [] ∧ 2 ≤ crs.u.length) → ((equ.commitAndProveU sch x y crs).run s).2 = (draws (F := F) G1 G2 (x.length) s).2) ∧
    ((x ≠ [] ∧ 2 ≤ crs.u.length) → ¬ (y ≠ [] ∧ crs.v.length = 2 ∧ equ.gamma.length = x.length ∧ ∃ g, equ.gamma.head? = some g ∧ g.length = y.length) →
      ((equ.commitAndProveU sch x y crs).run s).2 = (draws (F := F) G1 G2 (x.length + 2 * y.length) s).2) ∧
    ((x ≠ [] ∧ 2 ≤ crs.u.length) → (y ≠ [] ∧ crs.v.length = 2 ∧ equ.gamma.length = x.length ∧ ∃ g, equ.gamma.head? = some g ∧ g.length = y.length) →
      ((equ.commitAndProveU sch x y crs).run s).2 = (draws (F := F) G1 G2 (x.length + 2 * y.length + 2) s).2) := by
  have hxs := batchCommitScalarToB1_state (F := F) x crs s
  have hxf := batchCommitScalarToB1_forget (F := F) x crs s
  have hxt := batchCommitScalarToB1_total (F := F) (x := x) (key := crs) (s := s)
  rcases hx : (batchCommitScalarToB1U (F := F) x crs).run s with ⟨p | cx, s1⟩
  · have hst : ((equ.commitAndProveU sch x y crs).run s).2 = s1 := by
      unfold MSMEG2.commitAndProveU; rw [Unw.run_bind_error hx]
    rw [hx] at hxs
    have hno : ¬ ∃ c, batchCommitScalarToB1 (F := F) x crs s = .ok c := by
      rw [← hxf, Unw.forget_error.mpr (by rw [hx])]; simp
    rw [hxt] at hno
    exact ⟨fun _ => hst.trans hxs, fun h => absurd h hno, fun h => absurd h hno⟩
  · rw [Unw.forget_ok.mpr hx] at hxf
    have hyes := hxt.mp ⟨_, hxf.symm⟩
    obtain ⟨fx1, fx2⟩ := batchCommitScalarToB1_fit hxf.symm
    rw [hx] at hxs
    refine ⟨fun h => absurd hyes h, fun _ => ?_, fun _ => ?_⟩
    all_goals
      have hys := batchCommitG2_state (F := F) y crs s1
      have hyf := batchCommitG2_forget (F := F) y crs s1
      have hyt := batchCommitG2_total (F := F) (x := y) (key := crs) (s := s1)
      rcases hy : (batchCommitG2U (F := F) y crs).run s1 with ⟨p | cy, s2⟩
    · intro _
      unfold MSMEG2.commitAndProveU; rw [Unw.run_bind_ok hx, Unw.run_bind_error hy]
      rw [hy] at hys
      rw [draws_add, ← hxs]; exact hys
    · intro hg
      rw [Unw.forget_ok.mpr hy] at hyf
      have hyes' := hyt.mp ⟨_, hyf.symm⟩
      rw [hy] at hys
      have hnf : ¬ ArgsFit 1 2 x.length y.length equ.gamma cx.rand cy.rand :=
        fun h => hg ⟨hyes'.1, hyes'.2, h.grows, h.gcols⟩
      obtain ⟨⟨p, hp⟩, hs⟩ := (equ.prove_pre sch x y cx cy crs s2).2 hnf
      unfold MSMEG2.commitAndProveU
      rw [Unw.run_bind_ok hx, Unw.run_bind_ok hy, Unw.run_bind_error (Prod.ext hp hs)]
      rw [draws_add, ← hxs]; exact hys
    · intro hg
      have hno : ¬ ∃ c, batchCommitG2 (F := F) y crs s1 = .ok c := by
        rw [← hyf, Unw.forget_error.mpr (by rw [hy])]; simp
      exact absurd (hyt.mpr ⟨hg.1, hg.2.1⟩) hno
    · intro hg
      rw [Unw.forget_ok.mpr hy] at hyf
      obtain ⟨fy1, fy2⟩ := batchCommitG2_fit hyf.symm
      rw [hy] at hys
      have hs := (equ.prove_pre sch x y cx cy crs s2).1 ⟨fx1, fx2, fy1, fy2, hg.2.2.1, hg.2.2.2⟩
      have hk : ((equ.commitAndProveU sch x y crs).run s).2 = ((equ.proveU sch x y cx cy crs).run s2).2 := by
        unfold MSMEG2.commitAndProveU
        rw [Unw.run_bind_ok hx, Unw.run_bind_ok hy, Unw.bind_run]
        rcases (equ.proveU sch x y cx cy crs).run s2 with ⟨_ | _, _⟩ <;> rfl
      rw [hk, hs, draws_add, draws_add, ← hxs]
      simp only at hys ⊢
      rw [hys]

theorem QuadEqu.prove_pre (sch : Nat → Scheduler) (equ : QuadEqu F) (x : List F) (y : List F) (cx : Commit F G1)
    (cy : Commit F G2) (crs : CRS G1 G2 GT) (s : ρ) :
    Unw.Pre (ArgsFit 1 1 x.length y.length equ.gamma cx.rand cy.rand) (equ.proveU sch x y cx cy crs) s
      (draws (F := F) G1 G2 1 s).2 := by
  unfold QuadEqu.proveU
  simp only [Unw.liftM_eq]
  refine Unw.Pre.congr argsFit_iff (Unw.Pre.bind fun _ _ => Unw.Pre.bind fun _ _ => Unw.Pre.bind fun _ _ =>
    Unw.Pre.bind fun _ _ => Unw.Pre.bind fun _ _ => Unw.Pre.bind fun _ _ => Unw.Pre.bind fun _ _ =>
    Unw.Pre.bind fun _ _ => Unw.Pre.bind fun _ _ => Unw.Pre.bind fun _ _ => Unw.Pre.bind fun _ _ =>
    Unw.Pre.of_eq ?_)
  simp only [Unw.run_drawF_bind]
  refine Eq.trans (Unw.Keeps.ofRes_bind _ (fun _ => ?_) _) ?_
  · keeps
  · rfl

theorem QuadEqu.cap_state (sch : Nat → Scheduler) (equ : QuadEqu F) (x : List F) (y : List F) (crs : CRS G1 G2 GT) (s : ρ) :
    (¬ (x ≠ [] ∧ 2 ≤ crs.u.length) → ((equ.commitAndProveU sch x y crs).run s).2 = (draws (F := F) G1 G2 (x.length) s).2) ∧
    ((x ≠ [] ∧ 2 ≤ crs.u.length) → ¬ (y ≠ [] ∧ 2 ≤ crs.v.length ∧ equ.gamma.length = x.length ∧ ∃ g, equ.gamma.head? = some g ∧ g.length = y.length) →
      ((equ.commitAndProveU sch x y crs).run s).2 = (draws (F := F) G1 G2 (x.length + y.length) s).2) ∧
    ((x ≠ [] ∧ 2 ≤ crs.u.length) → (y ≠ [] ∧ 2 ≤ crs.v.length ∧ equ.gamma.length = x.length ∧ ∃ g, equ.gamma.head? = some g ∧ g.length = y.length) →
      ((equ.commitAndProveU sch x y crs).run s).2 = (draws (F := F) G1 G2 (x.length + y.length + 1) s).2) := by
  have hxs := batchCommitScalarToB1_state (F := F) x crs s
  have hxf := batchCommitScalarToB1_forget (F := F) x crs s
  have hxt := batchCommitScalarToB1_total (F := F) (x := x) (key := crs) (s := s)
  rcases hx : (batchCommitScalarToB1U (F := F) x crs).run s with ⟨p | cx, s1⟩
  · have hst : ((equ.commitAndProveU sch x y crs).run s).2 = s1 := by
      unfold QuadEqu.commitAndProveU; rw [Unw.run_bind_error hx]
    rw [hx] at hxs
    have hno : ¬ ∃ c, batchCommitScalarToB1 (F := F) x crs s = .ok c := by
      rw [← hxf, Unw.forget_error.mpr (by rw [hx])]; simp
    rw [hxt] at hno
    exact ⟨fun _ => hst.trans hxs, fun h => absurd h hno, fun h => absurd h hno⟩
  · rw [Unw.forget_ok.mpr hx] at hxf
    have hyes := hxt.mp ⟨_, hxf.symm⟩
    obtain ⟨fx1, fx2⟩ := batchCommitScalarToB1_fit hxf.symm
    rw [hx] at hxs
    refine ⟨fun h => absurd hyes h, fun _ => ?_, fun _ => ?_⟩
    all_goals
      have hys := batchCommitScalarToB2_state (F := F) y crs s1
      have hyf := batchCommitScalarToB2_forget (F := F) y crs s1
      have hyt := batchCommitScalarToB2_total (F := F) (x := y) (key := crs) (s := s1)
      rcases hy : (batchCommitScalarToB2U (F := F) y crs).run s1 with ⟨p | cy, s2⟩
    · intro _
      unfold QuadEqu.commitAndProveU; rw [Unw.run_bind_ok hx, Unw.run_bind_error hy]
      rw [hy] at hys
      rw [draws_add, ← hxs]; exact hys
    · intro hg
      rw [Unw.forget_ok.mpr hy] at hyf
      have hyes' := hyt.mp ⟨_, hyf.symm⟩
      rw [hy] at hys
      have hnf : ¬ ArgsFit 1 1 x.length y.length equ.gamma cx.rand cy.rand :=
        fun h => hg ⟨hyes'.1, hyes'.2, h.grows, h.gcols⟩
      obtain ⟨⟨p, hp⟩, hs⟩ := (equ.prove_pre sch x y cx cy crs s2).2 hnf
      unfold QuadEqu.commitAndProveU
      rw [Unw.run_bind_ok hx, Unw.run_bind_ok hy, Unw.run_bind_error (Prod.ext hp hs)]
      rw [draws_add, ← hxs]; exact hys
    · intro hg
      have hno : ¬ ∃ c, batchCommitScalarToB2 (F := F) y crs s1 = .ok c := by
        rw [← hyf, Unw.forget_error.mpr (by rw [hy])]; simp
      exact absurd (hyt.mpr ⟨hg.1, hg.2.1⟩) hno
    · intro hg
      rw [Unw.forget_ok.mpr hy] at hyf
      obtain ⟨fy1, fy2⟩ := batchCommitScalarToB2_fit hyf.symm
      rw [hy] at hys
      have hs := (equ.prove_pre sch x y cx cy crs s2).1 ⟨fx1, fx2, fy1, fy2, hg.2.2.1, hg.2.2.2⟩
      have hk : ((equ.commitAndProveU sch x y crs).run s).2 = ((equ.proveU sch x y cx cy crs).run s2).2 := by
        unfold QuadEqu.commitAndProveU
        rw [Unw.run_bind_ok hx, Unw.run_bind_ok hy, Unw.bind_run]
        rcases (equ.proveU sch x y cx cy crs).run s2 with ⟨_ | _, _⟩ <;> rfl
      rw [hk, hs, draws_add, draws_add, ← hxs]
      simp only at hys ⊢
      rw [hys]

end GS
