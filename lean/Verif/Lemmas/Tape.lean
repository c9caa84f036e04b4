import Verif.Spec.Tape
import Verif.Lemmas.Commit
import Verif.Lemmas.Complete

/-! Draws from tapes; committing one by one; histories. -/

set_option linter.unusedSectionVars false
set_option linter.unusedVariables false

namespace GS
variable {F G G1 G2 GT : Type} [Field F] [AddCommGroup G] [Module F G] [AddCommGroup G1] [Module F G1]
  [AddCommGroup G2] [Module F G2]

/-- Two draws. -/
def draw2 {ρ : Type} (f : ρ → F × ρ) (s : ρ) : (F × F) × ρ := (((f s).1, (f (f s).2).1), (f (f s).2).2)

theorem drawPairs_eq_drawF {ρ : Type} (f : ρ → F × ρ) (n : Nat) (s : ρ) :
    drawPairs f n s = drawF (draw2 f) n s := by
  induction n generalizing s with
  | zero => rfl
  | succ n ih => simp [drawPairs, drawF, draw2, ih]

/-- The field draws of the tape. -/
abbrev tapeF (F G1 G2 : Type) [Field F] [AddCommGroup G1] [AddCommGroup G2] : List F → F × List F :=
  Rng.randF (F := F) G1 G2

theorem tapeF_cons (a : F) (l : List F) : tapeF F G1 G2 (a :: l) = (a, l) := rfl

theorem drawF_tape (l rest : List F) : drawF (tapeF F G1 G2) l.length (l ++ rest) = (l, rest) := by
  induction l with
  | nil => rfl
  | cons a l ih => simp [drawF, ih, tapeF_cons]

theorem drawPairs_tape (R : List (F × F)) (rest : List F) :
    drawPairs (tapeF F G1 G2) R.length ((R.map fun p => [p.1, p.2]).flatten ++ rest) = (R, rest) := by
  induction R with
  | nil => rfl
  | cons a l ih =>
    simp only [List.length_cons, drawPairs, List.map_cons, List.flatten_cons, List.cons_append, List.nil_append, tapeF_cons, ih]

theorem drawF_tape' {l rest : List F} {n : Nat} (h : l.length = n) : drawF (tapeF F G1 G2) n (l ++ rest) = (l, rest) :=
  h ▸ drawF_tape l rest

theorem flatten_singletons {α : Type} (l : List α) : (l.map fun r => [r]).flatten = l := by
  induction l <;> simp_all

/-! ### Draws -/

section draws
variable {ρ : Type} [Rng ρ F G1 G2]

theorem draws_eq (n : Nat) (s : ρ) : draws (F := F) G1 G2 n s = drawF (Rng.randF (F := F) G1 G2) n s := by
  induction n generalizing s with
  | zero => rfl
  | succ n ih => simp [draws, drawF, ih]

theorem draws_add (a b : Nat) (s : ρ) : draws (F := F) G1 G2 (a + b) s =
    ((draws (F := F) G1 G2 a s).1 ++ (draws (F := F) G1 G2 b (draws (F := F) G1 G2 a s).2).1,
      (draws (F := F) G1 G2 b (draws (F := F) G1 G2 a s).2).2) := by
  induction a generalizing s with
  | zero => simp [draws]
  | succ a ih => rw [Nat.succ_add]; simp [draws, ih]

theorem draws_pairs (n : Nat) (s : ρ) : draws (F := F) G1 G2 (2 * n) s =
    (((drawPairs (Rng.randF (F := F) G1 G2) n s).1.map fun p => [p.1, p.2]).flatten,
      (drawPairs (Rng.randF (F := F) G1 G2) n s).2) := by
  induction n generalizing s with
  | zero => rfl
  | succ n ih => rw [Nat.mul_succ]; simp [draws, drawPairs, ih]

theorem draws_length (n : Nat) (s : ρ) : (draws (F := F) G1 G2 n s).1.length = n := by
  rw [draws_eq, drawF_length]

theorem draws_tape (l rest : List F) : draws (F := F) G1 G2 l.length (l ++ rest) = (l, rest) := by
  rw [draws_eq]; exact drawF_tape l rest

theorem draws_tape' {l : List F} {n : Nat} (h : l.length = n) (rest : List F) :
    draws (F := F) G1 G2 n (l ++ rest) = (l, rest) := h ▸ draws_tape l rest

end draws

theorem pairs_inj {α : Type} {l l' : List (α × α)}
    (h : (l.map fun p => [p.1, p.2]).flatten = (l'.map fun p => [p.1, p.2]).flatten) : l = l' := by
  induction l generalizing l' with
  | nil => cases l' <;> simp_all
  | cons a l ih =>
    cases l' with
    | nil => simp at h
    | cons b l' =>
      simp only [List.map_cons, List.flatten_cons, List.cons_append, List.nil_append, List.cons.injEq] at h
      obtain ⟨h1, h2, h3⟩ := h
      rw [ih h3, Prod.ext h1 h2]

/-! ### Committing one by one -/

theorem append_ok {a b : Commit F G} (ha : a.coms.length = a.rand.length) (hb : b.coms.length = b.rand.length) :
    a.append b = .ok (⟨a.coms ++ b.coms, a.rand ++ b.rand⟩, ⟨[], []⟩) := by
  simp [Commit.append, assertEq, ha, hb]

theorem commitEach_eq {ρ α δ : Type} {d : ρ → δ × ρ} {com : α → δ → Com G} {row : δ → List F}
    {single : α → ρ → Res (Commit F G × ρ)}
    (h : ∀ x s, single x s = .ok (⟨[com x (d s).1], [row (d s).1]⟩, (d s).2)) (x0 : α) (xs : List α) (s : ρ) :
    commitEach single x0 xs s =
      .ok (⟨List.zipWith com (x0 :: xs) (drawF d (x0 :: xs).length s).1, (drawF d (x0 :: xs).length s).1.map row⟩,
        (drawF d (x0 :: xs).length s).2) := by
  have key : ∀ (step : Commit F G × ρ → α → Res (Commit F G × ρ)),
      (∀ acc s x, acc.coms.length = acc.rand.length → step (acc, s) x =
        .ok (⟨acc.coms ++ [com x (d s).1], acc.rand ++ [row (d s).1]⟩, (d s).2)) →
      ∀ (xs : List α) (acc : Commit F G) (s : ρ), acc.coms.length = acc.rand.length →
      foldRes step (acc, s) xs =
      .ok (⟨acc.coms ++ List.zipWith com xs (drawF d xs.length s).1, acc.rand ++ (drawF d xs.length s).1.map row⟩,
        (drawF d xs.length s).2) := by
    intro step hstep xs
    induction xs with
    | nil => intro acc s _; simp [drawF]
    | cons x xs ih =>
      intro acc s hacc
      rw [foldRes_cons, hstep _ _ _ hacc, ok_bind, ih _ _ (by simp [hacc])]
      simp [drawF]
  simp only [commitEach, h x0, ok_bind]
  rw [key _ _ xs _ _ (by simp)]
  · simp [drawF]
  · intro acc s x hacc
    simp only [h x, ok_bind]
    rw [append_ok hacc (by simp)]
    simp

/-! ### Histories -/

theorem OpensGroup.append {u : List (Com G)} {c c' : Commit F G} {xs xs' : List G} (h : c.OpensGroup u xs)
    (h' : c'.OpensGroup u xs') :
    ∃ c'', c.append c' = .ok (c'', ⟨[], []⟩) ∧ c''.OpensGroup u (xs ++ xs') := by
  obtain ⟨u0, u1, ul, hu, R, hR, h1, h2⟩ := h
  obtain ⟨v0, v1, vl, hv, R', hR', h1', h2'⟩ := h'
  rw [hu] at hv; cases hv
  refine ⟨_, append_ok (by rw [h1, h2]; simp [hR]) (by rw [h1', h2']; simp [hR']), u0, u1, ul, hu, R ++ R',
    by simp [hR, hR'], by simp [h1, h1'], ?_⟩
  simp only [h2, h2']
  rw [List.zipWith_append hR.symm]

theorem OpensScalar.append {u : List (Com G)} {g : G} {c c' : Commit F G} {xs xs' : List F} (h : c.OpensScalar u g xs)
    (h' : c'.OpensScalar u g xs') :
    ∃ c'', c.append c' = .ok (c'', ⟨[], []⟩) ∧ c''.OpensScalar u g (xs ++ xs') := by
  obtain ⟨u0, u1, ul, hu, R, hR, h1, h2⟩ := h
  obtain ⟨v0, v1, vl, hv, R', hR', h1', h2'⟩ := h'
  rw [hu] at hv; cases hv
  refine ⟨_, append_ok (by rw [h1, h2]; simp [hR]) (by rw [h1', h2']; simp [hR']), u0, u1, ul, hu, R ++ R',
    by simp [hR, hR'], by simp [h1, h1'], ?_⟩
  simp only [h2, h2']
  rw [List.zipWith_append hR.symm]

theorem Hist.values_ne {α : Type} {h : Hist α} (hh : h.NoEmptyBatch) : h.values ≠ [] := by
  induction h with
  | single x => simp [Hist.values]
  | batch xs => exact hh
  | append h1 h2 ih1 ih2 => simp [Hist.values, ih1 hh.1]

/-- Generic: if the single and batch functions return openings, so does a history. -/
theorem Hist.run_opens {ρ α : Type} {single : α → ρ → Res (Commit F G × ρ)} {batch : List α → ρ → Res (Commit F G × ρ)}
    {P : Commit F G → List α → Prop}
    (hs : ∀ x s, ∃ c s', single x s = .ok (c, s') ∧ P c [x])
    (hb : ∀ xs s, xs ≠ [] → ∃ c s', batch xs s = .ok (c, s') ∧ P c xs)
    (ha : ∀ c c' xs xs', P c xs → P c' xs' → ∃ c'', c.append c' = .ok (c'', ⟨[], []⟩) ∧ P c'' (xs ++ xs'))
    (h : Hist α) (hh : h.NoEmptyBatch) (s : ρ) : ∃ c s', h.run single batch s = .ok (c, s') ∧ P c h.values := by
  induction h generalizing s with
  | single x => exact hs x s
  | batch xs => exact hb xs s hh
  | append h1 h2 ih1 ih2 =>
    obtain ⟨c1, s1, e1, p1⟩ := ih1 hh.1 s
    obtain ⟨c2, s2, e2, p2⟩ := ih2 hh.2 s1
    obtain ⟨c, e3, p⟩ := ha _ _ _ _ p1 p2
    exact ⟨c, s2, by simp [Hist.run, e1, e2, e3], p⟩

/-- Generic: a history with an empty batch panics if empty batches do. -/
theorem Hist.run_panics {ρ α : Type} {single : α → ρ → Res (Commit F G × ρ)} {batch : List α → ρ → Res (Commit F G × ρ)}
    (hb : ∀ s, ¬ (batch [] s).Ok) (h : Hist α) (hh : ¬ h.NoEmptyBatch) (s : ρ) :
    ¬ (h.run single batch s).Ok := by
  induction h generalizing s with
  | single x => exact absurd trivial hh
  | batch xs =>
    have : xs = [] := not_not.mp hh
    subst this; exact hb s
  | append h1 h2 ih1 ih2 =>
    simp only [Hist.run, bind_isOk_iff, not_exists, not_and]
    rintro ⟨c1, s1⟩ e1 ⟨c2, s2⟩ e2
    by_cases h1' : h1.NoEmptyBatch
    · have h2' : ¬ h2.NoEmptyBatch := fun h => hh ⟨h1', h⟩
      exact absurd ⟨_, e2⟩ (ih2 h2' s1)
    · exact absurd ⟨_, e1⟩ (ih1 h1' s)

section
variable [AddCommGroup GT] [Module F GT] {ρ : Type} [Rng ρ F G1 G2] {key : CRS G1 G2 GT}

theorem commitG1_opens (hu : 2 ≤ key.u.length) (x : G1) (s : ρ) :
    ∃ (c : Commit F G1) (s' : ρ), commitG1 x key s = .ok (c, s') ∧ c.OpensGroup key.u [x] := by
  obtain ⟨u0, u1, u', hu⟩ := cons2_of_length hu
  exact ⟨_, _, commitG1_iff.mpr ⟨u0, u1, u', hu, rfl⟩, u0, u1, u', hu, [(_, _)], rfl, rfl, rfl⟩

theorem commitG2_opens (hv : 2 ≤ key.v.length) (x : G2) (s : ρ) :
    ∃ (c : Commit F G2) (s' : ρ), commitG2 x key s = .ok (c, s') ∧ c.OpensGroup key.v [x] := by
  obtain ⟨u0, u1, u', hu⟩ := cons2_of_length hv
  exact ⟨_, _, commitG2_iff.mpr ⟨u0, u1, u', hu, rfl⟩, u0, u1, u', hu, [(_, _)], rfl, rfl, rfl⟩

theorem commitScalarToB1_opens (hu : 2 ≤ key.u.length) (x : F) (s : ρ) :
    ∃ (c : Commit F G1) (s' : ρ), commitScalarToB1 x key s = .ok (c, s') ∧ c.OpensScalar key.u key.g1_gen [x] := by
  obtain ⟨u0, u1, u', hu⟩ := cons2_of_length hu
  exact ⟨_, _, commitScalarToB1_iff.mpr ⟨u0, u1, u', hu, rfl⟩, u0, u1, u', hu, [Rng.randF (F := F) G1 G2 s |>.1], rfl, rfl, rfl⟩

theorem commitScalarToB2_opens (hv : 2 ≤ key.v.length) (x : F) (s : ρ) :
    ∃ (c : Commit F G2) (s' : ρ), commitScalarToB2 x key s = .ok (c, s') ∧ c.OpensScalar key.v key.g2_gen [x] := by
  obtain ⟨u0, u1, u', hu⟩ := cons2_of_length hv
  exact ⟨_, _, commitScalarToB2_iff.mpr ⟨u0, u1, u', hu, rfl⟩, u0, u1, u', hu, [Rng.randF (F := F) G1 G2 s |>.1], rfl, rfl, rfl⟩

end
end GS
