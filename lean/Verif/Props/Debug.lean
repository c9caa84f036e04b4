import Verif.Lemmas.Debug
import Verif.Props.Leak

/-!
# C103: `Debug` output shows everything, the private randomness included
-/

set_option linter.unusedSectionVars false

namespace GS

section output
variable {F G1 G2 GT : Type} {dF : Dbg F} {d1 : Dbg G1} {d2 : Dbg G2} {dT : Dbg GT}

/-- C103: commitments with the same output are the same, in their values and their randomness. -/
theorem C103_commits (hF : dF.Clear) (h1 : d1.Clear) (h2 : d2.Clear) (p : Bool) :
    Function.Injective (Commit.debug "Commit1" "Com1" dF d1 p) ∧ Function.Injective (Commit.debug "Commit2" "Com2" dF d2 p) :=
  ⟨Debug.Dbg.inj (Debug.clear_commit ⟨_, _, rfl, by decide⟩ ⟨_, _, rfl, by decide⟩ hF h1) p,
    Debug.Dbg.inj (Debug.clear_commit ⟨_, _, rfl, by decide⟩ ⟨_, _, rfl, by decide⟩ hF h2) p⟩

/-- C103: proofs with the same output are the same, in all their fields. -/
theorem C103_proofs (hF : dF.Clear) (h1 : d1.Clear) (h2 : d2.Clear) (p : Bool) :
    Function.Injective (EquProof.debug dF d1 d2 p) ∧ Function.Injective (CProof.debug dF d1 d2 p) :=
  ⟨Debug.Dbg.inj (Debug.clear_equProof hF h1 h2) p, Debug.Dbg.inj (Debug.clear_cproof hF h1 h2) p⟩

/-- C103: equations and CRSs with the same output are the same. -/
theorem C103_statements (hF : dF.Clear) (h1 : d1.Clear) (h2 : d2.Clear) (hT : dT.Clear) (p : Bool) :
    Function.Injective (PPE.debug dF d1 d2 dT p) ∧ Function.Injective (MSMEG1.debug dF d1 p) ∧
      Function.Injective (MSMEG2.debug dF d2 p) ∧ Function.Injective (QuadEqu.debug dF p) ∧
      Function.Injective (CRS.debug d1 d2 dT p) :=
  ⟨Debug.Dbg.inj (Debug.clear_ppe hF h1 h2 hT) p, Debug.Dbg.inj (Debug.clear_msmeg1 hF h1) p,
    Debug.Dbg.inj (Debug.clear_msmeg2 hF h2) p, Debug.Dbg.inj (Debug.clear_quad hF) p,
    Debug.Dbg.inj (Debug.clear_crs h1 h2 hT) p⟩

/-- C103: elements of the commitment groups, matrices and types of equations with the same output are the same. -/
theorem C103_elements (hF : dF.Clear) (h1 : d1.Clear) (h2 : d2.Clear) (hT : dT.Clear) (p : Bool) :
    Function.Injective (Com.debug "Com1" d1 p) ∧ Function.Injective (Com.debug "Com2" d2 p) ∧
      Function.Injective (ComT.debug dT p) ∧ Function.Injective (debugMatrix dF p) ∧ Function.Injective (EquType.debug p) :=
  ⟨Debug.Dbg.inj (Debug.clear_com ⟨_, _, rfl, by decide⟩ h1) p, Debug.Dbg.inj (Debug.clear_com ⟨_, _, rfl, by decide⟩ h2) p,
    Debug.Dbg.inj (Debug.clear_comT hT) p, Debug.Dbg.inj (Debug.clear_matrix hF) p, Debug.Dbg.inj Debug.clear_type p⟩

end output

section reveal
variable {F G G1 G2 GT : Type} [Field F] [AddCommGroup G] [Module F G] [AddCommGroup G1] [Module F G1]
  [AddCommGroup G2] [Module F G2] [AddCommGroup GT] [Module F GT] {ρ : Type} [Rng ρ F G1 G2] {key : CRS G1 G2 GT}
  {dF : Dbg F} {d1 : Dbg G1} {d2 : Dbg G2}

namespace Debug

theorem opensGroup_unique {u : List (Com G)} {c : Commit F G} {xs ys : List G} (h : c.OpensGroup u xs)
    (h' : c.OpensGroup u ys) : xs = ys := by
  obtain ⟨u0, u1, u', hu, R, hR, hr, hc⟩ := h
  obtain ⟨_, _, _, hu', R', hR', hr', hc'⟩ := h'
  rw [hu] at hu'
  cases hu'
  obtain rfl : R = R' := by
    have := hr.symm.trans hr'
    refine List.map_injective_iff.mpr ?_ this
    intro a b hab
    simp only [List.cons.injEq, and_true] at hab
    exact Prod.ext hab.1 hab.2
  have h := hc.symm.trans hc'
  clear hr hr' hc hc' hu
  induction xs generalizing R ys with
  | nil =>
    cases ys with
    | nil => rfl
    | cons y ys => simp at hR; simp [hR] at hR'
  | cons x xs ih =>
    cases R with
    | nil => simp at hR
    | cons r R =>
      cases ys with
      | nil => simp at hR'
      | cons y ys =>
        simp only [List.zipWith_cons_cons, List.cons.injEq] at h
        rw [ih R (by simpa using hR) (by simpa using hR') h.2]
        have := h.1
        simp only [groupCom, add_left_inj, Com.mk.injEq, true_and] at this
        rw [this]

theorem opensScalar_unique {u : List (Com G)} {g : G} {c : Commit F G} {xs ys : List F} (h : c.OpensScalar u g xs)
    (h' : c.OpensScalar u g ys) (hz : ∀ u0 u1 u', u = u0 :: u1 :: u' → u1 + ⟨0, g⟩ ≠ 0) : xs = ys := by
  obtain ⟨u0, u1, u', hu, R, hR, hr, hc⟩ := h
  obtain ⟨_, _, _, hu', R', hR', hr', hc'⟩ := h'
  have hz := hz _ _ _ hu
  rw [hu] at hu'
  cases hu'
  obtain rfl : R = R' := by
    have := hr.symm.trans hr'
    refine List.map_injective_iff.mpr ?_ this
    intro a b hab
    simpa using hab
  have h := hc.symm.trans hc'
  clear hr hr' hc hc' hu
  induction xs generalizing R ys with
  | nil =>
    cases ys with
    | nil => rfl
    | cons y ys => simp at hR; simp [hR] at hR'
  | cons x xs ih =>
    cases R with
    | nil => simp at hR
    | cons r R =>
      cases ys with
      | nil => simp at hR'
      | cons y ys =>
        simp only [List.zipWith_cons_cons, List.cons.injEq] at h
        rw [ih R (by simpa using hR) (by simpa using hR') h.2]
        have := h.1
        simp only [scalarCom, add_left_inj] at this
        have h6 : (x - y) • (u1 + (⟨0, g⟩ : Com G)) = 0 := by rw [sub_smul, this, sub_self]
        rcases smul_eq_zero.mp h6 with h7 | h7
        · rw [sub_eq_zero.mp h7]
        · exact absurd h7 hz

/-- If `R` determines `x` from `c` and `f` is injective, then `x` can be read from `f c`. -/
theorem exists_read {C X : Type} {f : C → List Char} (hf : Function.Injective f) {R : C → X → Prop} [Inhabited X]
    (hR : ∀ c x x', R c x → R c x' → x = x') : ∃ read : List Char → X, ∀ c x, R c x → read (f c) = x := by
  classical
  refine ⟨fun s => if h : ∃ x, ∃ c, f c = s ∧ R c x then h.choose else default, fun c x h => ?_⟩
  have hex : ∃ x', ∃ c', f c' = f c ∧ R c' x' := ⟨x, c, rfl, h⟩
  simp only [dif_pos hex]
  obtain ⟨c', h1, h2⟩ := hex.choose_spec
  exact hR c _ _ (hf h1 ▸ h2) h

end Debug

/-- C103: the committed `G1` elements can be read from the output of a commitment. -/
theorem C103_reveal_G1 (hF : dF.Clear) (h1 : d1.Clear) (p : Bool) (hu : key.u.length = 2) :
    ∃ read : List Char → List G1, ∀ (h : Hist G1), h.NoEmptyBatch → ∀ rng : ρ,
      ∃ c rng', histG1 key F h rng = .ok (c, rng') ∧ read (Commit.debug "Commit1" "Com1" dF d1 p c) = h.values := by
  obtain ⟨read, hread⟩ := Debug.exists_read (X := List G1)
    (C103_commits hF h1 h1 p).1
    (R := fun c x => c.OpensGroup key.u x) fun c x x' => Debug.opensGroup_unique
  refine ⟨read, fun h hh rng => ?_⟩
  obtain ⟨c, r, h2, h3⟩ := C20_history_G1 (F := F) hu h hh rng
  exact ⟨c, r, h2, hread c _ h3⟩

/-- C103: the committed `G2` elements can be read from the output of a commitment. -/
theorem C103_reveal_G2 (hF : dF.Clear) (h2 : d2.Clear) (p : Bool) (hv : key.v.length = 2) :
    ∃ read : List Char → List G2, ∀ (h : Hist G2), h.NoEmptyBatch → ∀ rng : ρ,
      ∃ c rng', histG2 key F h rng = .ok (c, rng') ∧ read (Commit.debug "Commit2" "Com2" dF d2 p c) = h.values := by
  obtain ⟨read, hread⟩ := Debug.exists_read (X := List G2)
    (C103_commits hF h2 h2 p).2
    (R := fun c x => c.OpensGroup key.v x) fun c x x' => Debug.opensGroup_unique
  refine ⟨read, fun h hh rng => ?_⟩
  obtain ⟨c, r, h2, h3⟩ := C20_history_G2 (F := F) hv h hh rng
  exact ⟨c, r, h2, hread c _ h3⟩

/-- C103: the scalars committed to on the `G1` side can be read from the output of a commitment. -/
theorem C103_reveal_B1 (hF : dF.Clear) (h1 : d1.Clear) (p : Bool) {u0 u1 : Com G1} (hu : key.u = [u0, u1])
    (hz : u1 + ⟨0, key.g1_gen⟩ ≠ 0) :
    ∃ read : List Char → List F, ∀ (h : Hist F), h.NoEmptyBatch → ∀ rng : ρ,
      ∃ c rng', histB1 key h rng = .ok (c, rng') ∧ read (Commit.debug "Commit1" "Com1" dF d1 p c) = h.values := by
  obtain ⟨read, hread⟩ := Debug.exists_read (X := List F)
    (C103_commits hF h1 h1 p).1
    (R := fun c x => c.OpensScalar key.u key.g1_gen x) fun c x x' h h' => Debug.opensScalar_unique h h' (by
      rw [hu]; intro a b l hab; cases hab; exact hz)
  refine ⟨read, fun h hh rng => ?_⟩
  obtain ⟨c, r, h2, h3⟩ := C20_history_B1 (key := key) (by simp [hu]) h hh rng
  exact ⟨c, r, h2, hread c _ h3⟩

/-- C103: the scalars committed to on the `G2` side can be read from the output of a commitment. -/
theorem C103_reveal_B2 (hF : dF.Clear) (h2 : d2.Clear) (p : Bool) {v0 v1 : Com G2} (hv : key.v = [v0, v1])
    (hz : v1 + ⟨0, key.g2_gen⟩ ≠ 0) :
    ∃ read : List Char → List F, ∀ (h : Hist F), h.NoEmptyBatch → ∀ rng : ρ,
      ∃ c rng', histB2 key h rng = .ok (c, rng') ∧ read (Commit.debug "Commit2" "Com2" dF d2 p c) = h.values := by
  obtain ⟨read, hread⟩ := Debug.exists_read (X := List F)
    (C103_commits hF h2 h2 p).2
    (R := fun c x => c.OpensScalar key.v key.g2_gen x) fun c x x' h h' => Debug.opensScalar_unique h h' (by
      rw [hv]; intro a b l hab; cases hab; exact hz)
  refine ⟨read, fun h hh rng => ?_⟩
  obtain ⟨c, r, h2, h3⟩ := C20_history_B2 (key := key) (by simp [hv]) h hh rng
  exact ⟨c, r, h2, hread c _ h3⟩

/-- C103: the whole witness can be read from the output of what `commit_and_prove` returns for a PPE. -/
theorem C103_witness_ppe (hF : dF.Clear) (h1 : d1.Clear) (h2 : d2.Clear) (p : Bool) (crs : CRS G1 G2 GT) :
    ∃ read : List Char → List G1 × List G2, ∀ (sch : Nat → Scheduler) (equ : PPE F G1 G2 GT) (x : List G1) (y : List G2)
      (rng rng' : ρ) (cp : CProof F G1 G2), equ.commitAndProve sch x y crs rng = .ok (cp, rng') →
      read (CProof.debug dF d1 d2 p cp) = (x, y) := by
  obtain ⟨read, hread⟩ := Debug.exists_read (X := List G1 × List G2) (Debug.Dbg.inj (Debug.clear_cproof hF h1 h2) p)
    (R := fun cp z => cp.xcoms.OpensGroup crs.u z.1 ∧ cp.ycoms.OpensGroup crs.v z.2) fun c z z' h h' =>
      Prod.ext (Debug.opensGroup_unique h.1 h'.1) (Debug.opensGroup_unique h.2 h'.2)
  refine ⟨read, fun sch equ x y rng rng' cp h => hread cp (x, y) ?_⟩
  simp only [PPE.commitAndProve, bind_ok_iff, pure_eq_ok, Except.ok.injEq, Prod.mk.injEq] at h
  obtain ⟨⟨c, r⟩, hc, ⟨c', r'⟩, hc', ⟨pf, r''⟩, -, rfl, -⟩ := h
  obtain ⟨-, u0, u1, hu, hc⟩ := batchCommitG1_iff.mp hc
  obtain ⟨-, v0, v1, hv, hc'⟩ := batchCommitG2_iff.mp hc'
  cases hc
  cases hc'
  exact ⟨⟨u0, u1, [], hu, _, drawPairs_length _ _ _, rfl, rfl⟩, ⟨v0, v1, [], hv, _, drawPairs_length _ _ _, rfl, rfl⟩⟩

/-- C103: the same for an MSMEG1 equation. -/
theorem C103_witness_msmeg1 (hF : dF.Clear) (h1 : d1.Clear) (h2 : d2.Clear) (p : Bool) (crs : CRS G1 G2 GT)
    (z2 : ∀ v0 v1 v', crs.v = v0 :: v1 :: v' → v1 + ⟨0, crs.g2_gen⟩ ≠ 0) :
    ∃ read : List Char → List G1 × List F, ∀ (sch : Nat → Scheduler) (equ : MSMEG1 F G1) (x : List G1) (y : List F)
      (rng rng' : ρ) (cp : CProof F G1 G2), equ.commitAndProve sch x y crs rng = .ok (cp, rng') →
      read (CProof.debug dF d1 d2 p cp) = (x, y) := by
  obtain ⟨read, hread⟩ := Debug.exists_read (X := List G1 × List F) (C103_proofs hF h1 h2 p).2
    (R := fun cp z => cp.xcoms.OpensGroup crs.u z.1 ∧ cp.ycoms.OpensScalar crs.v crs.g2_gen z.2) fun c z z' h h' =>
      Prod.ext (Debug.opensGroup_unique h.1 h'.1) (Debug.opensScalar_unique h.2 h'.2 z2)
  refine ⟨read, fun sch equ x y rng rng' cp h => hread cp (x, y) ?_⟩
  simp only [MSMEG1.commitAndProve, bind_ok_iff, pure_eq_ok, Except.ok.injEq, Prod.mk.injEq] at h
  obtain ⟨⟨c, r⟩, hc, ⟨c', r'⟩, hc', ⟨pf, r''⟩, -, rfl, -⟩ := h
  obtain ⟨-, u0, u1, hu, hc⟩ := batchCommitG1_iff.mp hc
  obtain ⟨-, v0, v1, v', hv, hc'⟩ := batchCommitScalarToB2_iff.mp hc'
  cases hc
  cases hc'
  exact ⟨⟨u0, u1, [], hu, _, drawPairs_length _ _ _, rfl, rfl⟩, ⟨v0, v1, v', hv, _, drawF_length _ _ _, rfl, rfl⟩⟩

/-- C103: the same for an MSMEG2 equation. -/
theorem C103_witness_msmeg2 (hF : dF.Clear) (h1 : d1.Clear) (h2 : d2.Clear) (p : Bool) (crs : CRS G1 G2 GT)
    (z1 : ∀ u0 u1 u', crs.u = u0 :: u1 :: u' → u1 + ⟨0, crs.g1_gen⟩ ≠ 0) :
    ∃ read : List Char → List F × List G2, ∀ (sch : Nat → Scheduler) (equ : MSMEG2 F G2) (x : List F) (y : List G2)
      (rng rng' : ρ) (cp : CProof F G1 G2), equ.commitAndProve sch x y crs rng = .ok (cp, rng') →
      read (CProof.debug dF d1 d2 p cp) = (x, y) := by
  obtain ⟨read, hread⟩ := Debug.exists_read (X := List F × List G2) (C103_proofs hF h1 h2 p).2
    (R := fun cp z => cp.xcoms.OpensScalar crs.u crs.g1_gen z.1 ∧ cp.ycoms.OpensGroup crs.v z.2) fun c z z' h h' =>
      Prod.ext (Debug.opensScalar_unique h.1 h'.1 z1) (Debug.opensGroup_unique h.2 h'.2)
  refine ⟨read, fun sch equ x y rng rng' cp h => hread cp (x, y) ?_⟩
  simp only [MSMEG2.commitAndProve, bind_ok_iff, pure_eq_ok, Except.ok.injEq, Prod.mk.injEq] at h
  obtain ⟨⟨c, r⟩, hc, ⟨c', r'⟩, hc', ⟨pf, r''⟩, -, rfl, -⟩ := h
  obtain ⟨-, u0, u1, u', hu, hc⟩ := batchCommitScalarToB1_iff.mp hc
  obtain ⟨-, v0, v1, hv, hc'⟩ := batchCommitG2_iff.mp hc'
  cases hc
  cases hc'
  exact ⟨⟨u0, u1, u', hu, _, drawF_length _ _ _, rfl, rfl⟩, ⟨v0, v1, [], hv, _, drawPairs_length _ _ _, rfl, rfl⟩⟩

/-- C103: the same for a quadratic equation. -/
theorem C103_witness_quad (hF : dF.Clear) (h1 : d1.Clear) (h2 : d2.Clear) (p : Bool) (crs : CRS G1 G2 GT)
    (z1 : ∀ u0 u1 u', crs.u = u0 :: u1 :: u' → u1 + ⟨0, crs.g1_gen⟩ ≠ 0)
    (z2 : ∀ v0 v1 v', crs.v = v0 :: v1 :: v' → v1 + ⟨0, crs.g2_gen⟩ ≠ 0) :
    ∃ read : List Char → List F × List F, ∀ (sch : Nat → Scheduler) (equ : QuadEqu F) (x : List F) (y : List F)
      (rng rng' : ρ) (cp : CProof F G1 G2), equ.commitAndProve sch x y crs rng = .ok (cp, rng') →
      read (CProof.debug dF d1 d2 p cp) = (x, y) := by
  obtain ⟨read, hread⟩ := Debug.exists_read (X := List F × List F) (C103_proofs hF h1 h2 p).2
    (R := fun cp z => cp.xcoms.OpensScalar crs.u crs.g1_gen z.1 ∧ cp.ycoms.OpensScalar crs.v crs.g2_gen z.2) fun c z z' h h' =>
      Prod.ext (Debug.opensScalar_unique h.1 h'.1 z1) (Debug.opensScalar_unique h.2 h'.2 z2)
  refine ⟨read, fun sch equ x y rng rng' cp h => hread cp (x, y) ?_⟩
  simp only [QuadEqu.commitAndProve, bind_ok_iff, pure_eq_ok, Except.ok.injEq, Prod.mk.injEq] at h
  obtain ⟨⟨c, r⟩, hc, ⟨c', r'⟩, hc', ⟨pf, r''⟩, -, rfl, -⟩ := h
  obtain ⟨-, u0, u1, u', hu, hc⟩ := batchCommitScalarToB1_iff.mp hc
  obtain ⟨-, v0, v1, v', hv, hc'⟩ := batchCommitScalarToB2_iff.mp hc'
  cases hc
  cases hc'
  exact ⟨⟨u0, u1, u', hu, _, drawF_length _ _ _, rfl, rfl⟩, ⟨v0, v1, v', hv, _, drawF_length _ _ _, rfl, rfl⟩⟩

end reveal

namespace Ex

/-- Output of numbers below 7. -/
def kDbg : Dbg K := fun _ a => (toString a.val).toList

theorem kDbg_clear : kDbg.Clear := by
  have h : ∀ a : K, ∃ c, c ∉ closers ∧ ∀ p, visible (kDbg p a) = [c] := by
    intro a
    have : a = 0 ∨ a = 1 ∨ a = 2 ∨ a = 3 ∨ a = 4 ∨ a = 5 ∨ a = 6 := by revert a; decide
    rcases this with rfl | rfl | rfl | rfl | rfl | rfl | rfl
    exacts [⟨'0', by decide, fun _ => by rfl⟩, ⟨'1', by decide, fun _ => by rfl⟩, ⟨'2', by decide, fun _ => by rfl⟩,
      ⟨'3', by decide, fun _ => by rfl⟩, ⟨'4', by decide, fun _ => by rfl⟩, ⟨'5', by decide, fun _ => by rfl⟩,
      ⟨'6', by decide, fun _ => by rfl⟩]
  constructor
  · intro p a
    obtain ⟨c, h1, h2⟩ := h a
    exact ⟨c, [], h2 p, h1⟩
  · intro p a b s t _ _ hst
    have hinj : ∀ a b : K, visible (kDbg false a) = visible (kDbg false b) → a = b := by decide
    obtain ⟨c, -, h2⟩ := h a
    obtain ⟨c', -, h2'⟩ := h b
    rw [h2, h2'] at hst
    simp only [List.singleton_append, List.cons.injEq] at hst
    exact ⟨hinj a b (by rw [h2, h2', hst.1]), hst.2⟩

end Ex

/-- The output with `{:?}`. -/
example : Commit.debug "Commit1" "Com1" Ex.kDbg Ex.kDbg false ⟨[⟨1, 2⟩, ⟨3, 4⟩], [[5, 6], [0, 1]]⟩ =
    "Commit1 { coms: [Com1(1, 2), Com1(3, 4)], rand: [[5, 6], [0, 1]] }".toList := by rfl

set_option maxRecDepth 4000 in
/-- The output with `{:#?}`. -/
example : Commit.debug "Commit1" "Com1" Ex.kDbg Ex.kDbg true ⟨[⟨1, 2⟩], [[5, 6]]⟩ =
    "Commit1 {\n    coms: [\n        Com1(\n            1,\n            2,\n        ),\n    ],\n    rand: [\n        [\n            5,\n            6,\n        ],\n    ],\n}".toList := by
  rfl

example := C103_commits Ex.kDbg_clear Ex.kDbg_clear Ex.kDbg_clear true
example := C103_statements Ex.kDbg_clear Ex.kDbg_clear Ex.kDbg_clear Ex.kDbg_clear false

/-- A hiding CRS does not help. -/
example : ∃ read : List Char → List Ex.K, ∀ h : Hist Ex.K, h.NoEmptyBatch → ∀ rng : Nat,
    ∃ c rng', histG1 Ex.sim7 Ex.K h rng = .ok (c, rng') ∧
      read (Commit.debug "Commit1" "Com1" Ex.kDbg Ex.kDbg false c) = h.values :=
  C103_reveal_G1 Ex.kDbg_clear Ex.kDbg_clear false rfl

example := C103_reveal_B1 (ρ := Nat) (key := Ex.sim7) Ex.kDbg_clear Ex.kDbg_clear true rfl (by decide)

example : ∃ read : List Char → List Ex.K × List Ex.K, ∀ (sch : Nat → Scheduler) (equ : QuadEqu Ex.K) (x y : List Ex.K)
    (rng rng' : Nat) (cp : CProof Ex.K Ex.K Ex.K), equ.commitAndProve sch x y Ex.sim7 rng = .ok (cp, rng') →
    read (CProof.debug Ex.kDbg Ex.kDbg Ex.kDbg true cp) = (x, y) :=
  C103_witness_quad Ex.kDbg_clear Ex.kDbg_clear Ex.kDbg_clear true Ex.sim7
    (by intro _ _ _ h; cases h; decide) (by intro _ _ _ h; cases h; decide)

/-! ### Instances -/

namespace Ex

example := C103_proofs kDbg_clear kDbg_clear kDbg_clear true
example := C103_elements kDbg_clear kDbg_clear kDbg_clear kDbg_clear false
example := C103_reveal_G2 (ρ := Nat) (key := sim7) kDbg_clear kDbg_clear true rfl
example := C103_reveal_B2 (ρ := Nat) (key := sim7) kDbg_clear kDbg_clear true rfl (by decide)
example := C103_witness_ppe (ρ := Nat) kDbg_clear kDbg_clear kDbg_clear true sim7
example := C103_witness_msmeg1 (ρ := Nat) kDbg_clear kDbg_clear kDbg_clear true sim7 (by intro _ _ _ h; cases h; decide)
example := C103_witness_msmeg2 (ρ := Nat) kDbg_clear kDbg_clear kDbg_clear true sim7 (by intro _ _ _ h; cases h; decide)

end Ex

end GS
