import Verif.Lemmas.Tape
import Verif.Props.Example
import Verif.Props.Matrices

/-!
# C18–C21, C46, C48 (commitments): batches, appends, histories, several equations, homomorphism
-/

set_option linter.unusedSectionVars false

namespace GS
variable {F G1 G2 GT : Type} [Field F] [AddCommGroup G1] [Module F G1] [AddCommGroup G2] [Module F G2]
  [AddCommGroup GT] [Module F GT] {ρ : Type} [Rng ρ F G1 G2]

/-! ### C18 -/

/-- C18, `batch_commit_G1`. -/
theorem C18_batch_G1 (key : CRS G1 G2 GT) (hu : key.u.length = 2) (x0 : G1) (xs : List G1) (rng : ρ) :
    batchCommitG1 (F := F) (x0 :: xs) key rng = commitEach (fun x s => commitG1 (F := F) x key s) x0 xs rng := by
  obtain ⟨u0, u1, hu⟩ := List.length_eq_two.mp hu
  rw [batchCommitG1_iff.mpr ⟨by simp, u0, u1, hu, rfl⟩, drawPairs_eq_drawF]
  exact (commitEach_eq (d := draw2 (ρ := ρ) (Rng.randF (F := F) G1 G2))
    (com := fun x ab => Com1.linearMap x + ab.1 • u0 + ab.2 • u1) (row := fun p => [p.1, p.2])
    (fun x s => commitG1_iff.mpr ⟨u0, u1, [], hu, rfl⟩) x0 xs rng).symm

/-- C18, `batch_commit_G2`. -/
theorem C18_batch_G2 (key : CRS G1 G2 GT) (hv : key.v.length = 2) (x0 : G2) (xs : List G2) (rng : ρ) :
    batchCommitG2 (F := F) (x0 :: xs) key rng = commitEach (fun x s => commitG2 (F := F) x key s) x0 xs rng := by
  obtain ⟨u0, u1, hu⟩ := List.length_eq_two.mp hv
  rw [batchCommitG2_iff.mpr ⟨by simp, u0, u1, hu, rfl⟩, drawPairs_eq_drawF]
  exact (commitEach_eq (d := draw2 (ρ := ρ) (Rng.randF (F := F) G1 G2))
    (com := fun x ab => Com2.linearMap x + ab.1 • u0 + ab.2 • u1) (row := fun p => [p.1, p.2])
    (fun x s => commitG2_iff.mpr ⟨u0, u1, [], hu, rfl⟩) x0 xs rng).symm

/-- C18, `batch_commit_scalar_to_B1`: for any key with at least two elements. -/
theorem C18_batch_scalar_B1 (key : CRS G1 G2 GT) (hu : 2 ≤ key.u.length) (x0 : F) (xs : List F) (rng : ρ) :
    batchCommitScalarToB1 (x0 :: xs) key rng = commitEach (fun x s => commitScalarToB1 x key s) x0 xs rng := by
  obtain ⟨u0, u1, u', hu⟩ := cons2_of_length hu
  rw [batchCommitScalarToB1_iff.mpr ⟨by simp, u0, u1, u', hu, rfl⟩]
  exact (commitEach_eq (d := Rng.randF (F := F) G1 G2)
    (com := fun x r => x • (u1 + Com1.linearMap key.g1_gen) + r • u0) (row := fun r => [r])
    (fun x s => commitScalarToB1_iff.mpr ⟨u0, u1, u', hu, rfl⟩) x0 xs rng).symm

/-- C18, `batch_commit_scalar_to_B2`: for any key with at least two elements. -/
theorem C18_batch_scalar_B2 (key : CRS G1 G2 GT) (hv : 2 ≤ key.v.length) (x0 : F) (xs : List F) (rng : ρ) :
    batchCommitScalarToB2 (x0 :: xs) key rng = commitEach (fun x s => commitScalarToB2 x key s) x0 xs rng := by
  obtain ⟨u0, u1, u', hu⟩ := cons2_of_length hv
  rw [batchCommitScalarToB2_iff.mpr ⟨by simp, u0, u1, u', hu, rfl⟩]
  exact (commitEach_eq (d := Rng.randF (F := F) G1 G2)
    (com := fun x r => x • (u1 + Com2.linearMap key.g2_gen) + r • u0) (row := fun r => [r])
    (fun x s => commitScalarToB2_iff.mpr ⟨u0, u1, u', hu, rfl⟩) x0 xs rng).symm

example : batchCommitG1 (F := Ex.K) [3, 4, 5] Ex.crs7 (0 : Nat) =
    commitEach (fun x s => commitG1 (F := Ex.K) x Ex.crs7 s) 3 [4, 5] (0 : Nat) := C18_batch_G1 _ rfl _ _ _
example : batchCommitG2 (F := Ex.K) [3, 4, 5] Ex.crs7 (0 : Nat) =
    commitEach (fun x s => commitG2 (F := Ex.K) x Ex.crs7 s) 3 [4, 5] (0 : Nat) := C18_batch_G2 _ rfl _ _ _
example : batchCommitScalarToB1 [(3 : Ex.K), 4, 5] Ex.crs7 (0 : Nat) =
    commitEach (fun x s => commitScalarToB1 x Ex.crs7 s) 3 [4, 5] (0 : Nat) := C18_batch_scalar_B1 _ (by decide) _ _ _
example : batchCommitScalarToB2 [(3 : Ex.K), 4, 5] Ex.crs7 (0 : Nat) =
    commitEach (fun x s => commitScalarToB2 x Ex.crs7 s) 3 [4, 5] (0 : Nat) := C18_batch_scalar_B2 _ (by decide) _ _ _

/-! ### C19 -/

section append
variable {G : Type}

/-- C19: the result of `append` on commitments with as many randomness rows as values. -/
theorem C19_append (a b : Commit F G) (ha : a.coms.length = a.rand.length) (hb : b.coms.length = b.rand.length) :
    ∃ a' b', a.append b = .ok (a', b') ∧ a'.coms = a.coms ++ b.coms ∧ a'.rand = a.rand ++ b.rand ∧
      a'.coms.zip a'.rand = a.coms.zip a.rand ++ b.coms.zip b.rand ∧ b'.coms = [] ∧ b'.rand = [] := by
  refine ⟨⟨a.coms ++ b.coms, a.rand ++ b.rand⟩, ⟨[], []⟩, ?_, rfl, rfl, List.zip_append ha, rfl, rfl⟩
  simp [Commit.append, assertEq, ha, hb]

/-- C19: `append` panics exactly when either argument has mismatched lengths. -/
theorem C19_append_panics (a b : Commit F G) :
    (a.append b).Panics ↔ a.coms.length ≠ a.rand.length ∨ b.coms.length ≠ b.rand.length := by
  rw [panics_iff_not_ok]
  simp only [Res.Ok, Commit.append, bind_ok_iff, assertEq_ok_iff, exists_const, pure_eq_ok, Except.ok.injEq,
    exists_and_left, exists_eq', and_true]
  tauto

/-- C19: `(a.append(b)).append(c)` and `a.append(b.append(c))` leave the same in `a`, or both panic. -/
theorem C19_append_assoc (a b c : Commit F G) :
    SameOutcome (do let (ab, _) ← a.append b; let (r, _) ← ab.append c; pure r)
      (do let (bc, _) ← b.append c; let (r, _) ← a.append bc; pure r) := by
  apply sameOutcome_of
  intro r
  simp only [Commit.append, bind_ok_iff, assertEq_ok_iff, exists_const, pure_eq_ok, Except.ok.injEq, Prod.exists,
    Prod.mk.injEq]
  constructor
  · rintro ⟨_, _, ⟨h1, h2, rfl, rfl⟩, _, _, ⟨h3, h4, rfl, rfl⟩, rfl⟩
    refine ⟨_, _, ⟨h2, h4, rfl, rfl⟩, _, _, ⟨h1, ?_, rfl, rfl⟩, ?_⟩
    · simp [h2, h4]
    · simp
  · rintro ⟨_, _, ⟨h1, h2, rfl, rfl⟩, _, _, ⟨h3, h4, rfl, rfl⟩, rfl⟩
    refine ⟨_, _, ⟨h3, h1, rfl, rfl⟩, _, _, ⟨?_, h2, rfl, rfl⟩, ?_⟩
    · simp [h1, h3]
    · simp

/-- C19: appending any sequence of commitments concatenates them all, in order. -/
theorem C19_append_all (c : Commit F G) (cs : List (Commit F G)) (h : ∀ d ∈ c :: cs, d.coms.length = d.rand.length) :
    appendAll c cs = .ok ⟨((c :: cs).map (·.coms)).flatten, ((c :: cs).map (·.rand)).flatten⟩ := by
  unfold appendAll
  induction cs generalizing c with
  | nil => simp
  | cons d ds ih =>
    rw [foldRes_cons]
    have h1 := h c (by simp)
    have h2 := h d (by simp)
    have : c.append d = .ok (⟨c.coms ++ d.coms, c.rand ++ d.rand⟩, ⟨[], []⟩) := by
      simp [Commit.append, assertEq, h1, h2]
    simp only [this, ok_bind, pure_eq_ok]
    refine (ih ⟨c.coms ++ d.coms, c.rand ++ d.rand⟩ ?_).trans ?_
    · intro d' hd'
      rcases List.mem_cons.mp hd' with rfl | hd'
      · simp [h1, h2]
      · exact h d' (by simp [hd'])
    · simp

example : (⟨[⟨1, 2⟩], [[3, 4]]⟩ : Commit Ex.K Ex.K).append ⟨[⟨5, 6⟩, ⟨0, 0⟩], [[0, 1], [2, 3]]⟩ =
    .ok (⟨[⟨1, 2⟩, ⟨5, 6⟩, ⟨0, 0⟩], [[3, 4], [0, 1], [2, 3]]⟩, ⟨[], []⟩) := rfl
example : ((⟨[⟨1, 2⟩], [[3, 4]]⟩ : Commit Ex.K Ex.K).append ⟨[⟨5, 6⟩], []⟩).Panics :=
  (C19_append_panics _ _).mpr (.inr (by simp))

end append

/-! ### C48, commitments -/

/-- C48: batch commitment of an empty list panics. -/
theorem C48_batch_empty (key : CRS G1 G2 GT) (rng : ρ) :
    (batchCommitG1 (F := F) [] key rng).Panics ∧ (batchCommitG2 (F := F) [] key rng).Panics ∧
    (batchCommitScalarToB1 (F := F) [] key rng).Panics ∧ (batchCommitScalarToB2 (F := F) [] key rng).Panics := by
  simp only [panics_iff_not_ok]
  refine ⟨?_, ?_, ?_, ?_⟩ <;> rintro ⟨r, h⟩
  · exact (batchCommitG1_iff.mp h).1 rfl
  · exact (batchCommitG2_iff.mp h).1 rfl
  · exact (batchCommitScalarToB1_iff.mp h).1 rfl
  · exact (batchCommitScalarToB2_iff.mp h).1 rfl

/-! ### C20 -/

section hist
variable (key : CRS G1 G2 GT)

/-- A history of commitments to `G1` elements. -/
def histG1 (F : Type) [Field F] [Module F G1] [Module F G2] [Rng ρ F G1 G2] (h : Hist G1) (rng : ρ) :
    Res (Commit F G1 × ρ) :=
  h.run (fun x s => commitG1 (F := F) x key s) (fun xs s => batchCommitG1 (F := F) xs key s) rng

/-- A history of commitments to `G2` elements. -/
def histG2 (F : Type) [Field F] [Module F G1] [Module F G2] [Rng ρ F G1 G2] (h : Hist G2) (rng : ρ) :
    Res (Commit F G2 × ρ) :=
  h.run (fun x s => commitG2 (F := F) x key s) (fun xs s => batchCommitG2 (F := F) xs key s) rng

/-- A history of scalar commitments on the `G1` side. -/
def histB1 (h : Hist F) (rng : ρ) : Res (Commit F G1 × ρ) :=
  h.run (fun x s => commitScalarToB1 x key s) (fun xs s => batchCommitScalarToB1 xs key s) rng

/-- A history of scalar commitments on the `G2` side. -/
def histB2 (h : Hist F) (rng : ρ) : Res (Commit F G2 × ρ) :=
  h.run (fun x s => commitScalarToB2 x key s) (fun xs s => batchCommitScalarToB2 xs key s) rng

variable {key}

/-- C20: every history without empty batches returns a commitment to the concatenation of the values. -/
theorem C20_history_G1 (hu : key.u.length = 2) (h : Hist G1) (hh : h.NoEmptyBatch) (rng : ρ) :
    ∃ c rng', histG1 key F h rng = .ok (c, rng') ∧ c.OpensGroup key.u h.values :=
  h.run_opens (fun x s => commitG1_opens (by omega) x s) (fun xs s hx => batchCommitG1_opens hx hu)
    (fun _ _ _ _ => OpensGroup.append) hh rng

theorem C20_history_G2 (hv : key.v.length = 2) (h : Hist G2) (hh : h.NoEmptyBatch) (rng : ρ) :
    ∃ c rng', histG2 key F h rng = .ok (c, rng') ∧ c.OpensGroup key.v h.values :=
  h.run_opens (fun x s => commitG2_opens (by omega) x s) (fun xs s hx => batchCommitG2_opens hx hv)
    (fun _ _ _ _ => OpensGroup.append) hh rng

theorem C20_history_B1 (hu : 2 ≤ key.u.length) (h : Hist F) (hh : h.NoEmptyBatch) (rng : ρ) :
    ∃ c rng', histB1 key h rng = .ok (c, rng') ∧ c.OpensScalar key.u key.g1_gen h.values :=
  h.run_opens (fun x s => commitScalarToB1_opens hu x s) (fun xs s hx => batchCommitScalarToB1_opens hx hu)
    (fun _ _ _ _ => OpensScalar.append) hh rng

theorem C20_history_B2 (hv : 2 ≤ key.v.length) (h : Hist F) (hh : h.NoEmptyBatch) (rng : ρ) :
    ∃ c rng', histB2 key h rng = .ok (c, rng') ∧ c.OpensScalar key.v key.g2_gen h.values :=
  h.run_opens (fun x s => commitScalarToB2_opens hv x s) (fun xs s hx => batchCommitScalarToB2_opens hx hv)
    (fun _ _ _ _ => OpensScalar.append) hh rng

/-- C20: a history with an empty batch panics. -/
theorem C20_history_empty (rng : ρ) :
    (∀ h : Hist G1, ¬ h.NoEmptyBatch → (histG1 key F h rng).Panics) ∧
    (∀ h : Hist G2, ¬ h.NoEmptyBatch → (histG2 key F h rng).Panics) ∧
    (∀ h : Hist F, ¬ h.NoEmptyBatch → (histB1 key h rng).Panics) ∧
    (∀ h : Hist F, ¬ h.NoEmptyBatch → (histB2 key h rng).Panics) := by
  simp only [panics_iff_not_ok]
  exact ⟨fun h hh => h.run_panics (fun s => (panics_iff_not_ok.mp (C48_batch_empty key s).1)) hh rng,
    fun h hh => h.run_panics (fun s => (panics_iff_not_ok.mp (C48_batch_empty key s).2.1)) hh rng,
    fun h hh => h.run_panics (fun s => (panics_iff_not_ok.mp (C48_batch_empty key s).2.2.1)) hh rng,
    fun h hh => h.run_panics (fun s => (panics_iff_not_ok.mp (C48_batch_empty key s).2.2.2)) hh rng⟩

variable [DecidableEq GT] (e : G1 →ₗ[F] G2 →ₗ[F] GT) (sch : Nat → Scheduler) (sch' : Scheduler)

/-- C20: commitments made by any histories can be proved about, PPE. -/
theorem C20_prove_ppe (hu : key.u.length = 2) (hv : key.v.length = 2) (equ : PPE F G1 G2 GT)
    (hx : Hist G1) (hy : Hist G2) (hhx : hx.NoEmptyBatch) (hhy : hy.NoEmptyBatch)
    (hd : equ.Dims hx.values.length hy.values.length) (hs : equ.Holds e hx.values hy.values) (rng : ρ) :
    ∃ xc r1 yc r2 pf r3, histG1 key F hx rng = .ok (xc, r1) ∧ histG2 key F hy r1 = .ok (yc, r2) ∧
      equ.prove sch hx.values hy.values xc yc key r2 = .ok (pf, r3) ∧
      equ.verify e sch' ⟨xc, yc, [pf]⟩ key = .ok true := by
  obtain ⟨xc, r1, h1, o1⟩ := C20_history_G1 (F := F) hu hx hhx rng
  obtain ⟨yc, r2, h2, o2⟩ := C20_history_G2 (F := F) hv hy hhy r1
  obtain ⟨pf, r3, h3, -, -, -, h4⟩ := PPE.honest e sch equ _ _ xc yc key r2 (Hist.values_ne hhx) (Hist.values_ne hhy)
    hd hu hv o1 o2
  obtain ⟨b, hb, hb'⟩ := h4 sch' ⟨xc, yc, [pf]⟩ rfl rfl rfl
  rw [hb'.mpr hs] at hb
  exact ⟨xc, r1, yc, r2, pf, r3, h1, h2, h3, hb⟩

/-- C20, MSMEG1. -/
theorem C20_prove_msmeg1 (hu : key.u.length = 2) (hv : 2 ≤ key.v.length) (equ : MSMEG1 F G1)
    (hx : Hist G1) (hy : Hist F) (hhx : hx.NoEmptyBatch) (hhy : hy.NoEmptyBatch)
    (hd : equ.Dims hx.values.length hy.values.length) (hs : equ.Holds hx.values hy.values) (rng : ρ) :
    ∃ xc r1 yc r2 pf r3, histG1 key F hx rng = .ok (xc, r1) ∧ histB2 key hy r1 = .ok (yc, r2) ∧
      equ.prove sch hx.values hy.values xc yc key r2 = .ok (pf, r3) ∧
      equ.verify e sch' ⟨xc, yc, [pf]⟩ key = .ok true := by
  obtain ⟨xc, r1, h1, o1⟩ := C20_history_G1 (F := F) hu hx hhx rng
  obtain ⟨yc, r2, h2, o2⟩ := C20_history_B2 (F := F) hv hy hhy r1
  obtain ⟨v0, v1, v', hv⟩ := cons2_of_length hv
  obtain ⟨pf, r3, h3, -, -, -, h4⟩ := MSMEG1.honest e sch equ _ _ xc yc key r2 (Hist.values_ne hhx)
    (Hist.values_ne hhy) hd hu hv o1 o2
  obtain ⟨b, hb, hb'⟩ := h4 sch' ⟨xc, yc, [pf]⟩ rfl rfl rfl
  rw [hb'.mpr (congrArg _ hs)] at hb
  exact ⟨xc, r1, yc, r2, pf, r3, h1, h2, h3, hb⟩

/-- C20, MSMEG2. -/
theorem C20_prove_msmeg2 (hu : 2 ≤ key.u.length) (hv : key.v.length = 2) (equ : MSMEG2 F G2)
    (hx : Hist F) (hy : Hist G2) (hhx : hx.NoEmptyBatch) (hhy : hy.NoEmptyBatch)
    (hd : equ.Dims hx.values.length hy.values.length) (hs : equ.Holds hx.values hy.values) (rng : ρ) :
    ∃ xc r1 yc r2 pf r3, histB1 key hx rng = .ok (xc, r1) ∧ histG2 key F hy r1 = .ok (yc, r2) ∧
      equ.prove sch hx.values hy.values xc yc key r2 = .ok (pf, r3) ∧
      equ.verify e sch' ⟨xc, yc, [pf]⟩ key = .ok true := by
  obtain ⟨xc, r1, h1, o1⟩ := C20_history_B1 (F := F) hu hx hhx rng
  obtain ⟨yc, r2, h2, o2⟩ := C20_history_G2 (F := F) hv hy hhy r1
  obtain ⟨u0, u1, u', hu⟩ := cons2_of_length hu
  obtain ⟨pf, r3, h3, -, -, -, h4⟩ := MSMEG2.honest e sch equ _ _ xc yc key r2 (Hist.values_ne hhx)
    (Hist.values_ne hhy) hd hu hv o1 o2
  obtain ⟨b, hb, hb'⟩ := h4 sch' ⟨xc, yc, [pf]⟩ rfl rfl rfl
  rw [hb'.mpr (congrArg _ hs)] at hb
  exact ⟨xc, r1, yc, r2, pf, r3, h1, h2, h3, hb⟩

/-- C20, QuadEqu. -/
theorem C20_prove_quad (hu : 2 ≤ key.u.length) (hv : 2 ≤ key.v.length) (equ : QuadEqu F)
    (hx : Hist F) (hy : Hist F) (hhx : hx.NoEmptyBatch) (hhy : hy.NoEmptyBatch)
    (hd : equ.Dims hx.values.length hy.values.length) (hs : equ.Holds hx.values hy.values) (rng : ρ) :
    ∃ xc r1 yc r2 pf r3, histB1 key hx rng = .ok (xc, r1) ∧ histB2 key hy r1 = .ok (yc, r2) ∧
      equ.prove sch hx.values hy.values xc yc key r2 = .ok (pf, r3) ∧
      equ.verify e sch' ⟨xc, yc, [pf]⟩ key = .ok true := by
  obtain ⟨xc, r1, h1, o1⟩ := C20_history_B1 (F := F) hu hx hhx rng
  obtain ⟨yc, r2, h2, o2⟩ := C20_history_B2 (F := F) hv hy hhy r1
  obtain ⟨u0, u1, u', hu⟩ := cons2_of_length hu
  obtain ⟨v0, v1, v', hv⟩ := cons2_of_length hv
  obtain ⟨pf, r3, h3, -, -, -, h4⟩ := QuadEqu.honest e sch equ _ _ xc yc key r2 (Hist.values_ne hhx)
    (Hist.values_ne hhy) hd hu hv o1 o2
  obtain ⟨b, hb, hb'⟩ := h4 sch' ⟨xc, yc, [pf]⟩ rfl rfl rfl
  rw [hb'.mpr (congrArg _ hs)] at hb
  exact ⟨xc, r1, yc, r2, pf, r3, h1, h2, h3, hb⟩

example (sch : Nat → Scheduler) (sch' : Scheduler) :=
  C20_prove_ppe Ex.e7 sch sch' (key := Ex.crs7) rfl rfl Ex.ppe7 (.single 2) (.append (.batch [3]) (.single 4))
    trivial ⟨by simp [Hist.NoEmptyBatch], trivial⟩ Ex.ppe7_dims Ex.ppe7_holds (0 : Nat)
example (sch : Nat → Scheduler) (sch' : Scheduler) :=
  C20_prove_msmeg1 Ex.e7 sch sch' (key := Ex.crs7) rfl (by decide) Ex.msm1_7 (.single 2) (.append (.batch [3]) (.single 4))
    trivial ⟨by simp [Hist.NoEmptyBatch], trivial⟩ Ex.msm1_7_dims Ex.msm1_7_holds (0 : Nat)
example (sch : Nat → Scheduler) (sch' : Scheduler) :=
  C20_prove_msmeg2 Ex.e7 sch sch' (key := Ex.crs7) (by decide) rfl Ex.msm2_7 (.single 2) (.append (.batch [3]) (.single 4))
    trivial ⟨by simp [Hist.NoEmptyBatch], trivial⟩ Ex.msm2_7_dims Ex.msm2_7_holds (0 : Nat)
example (sch : Nat → Scheduler) (sch' : Scheduler) :=
  C20_prove_quad Ex.e7 sch sch' (key := Ex.crs7) (by decide) (by decide) Ex.quad7 (.single 2)
    (.append (.batch [3]) (.single 4))
    trivial ⟨by simp [Hist.NoEmptyBatch], trivial⟩ Ex.quad7_dims Ex.quad7_holds (0 : Nat)

/-! ### C21 -/

theorem proveAll_forall₂ {E P : Type} {prove : E → ρ → Res (P × ρ)} {good : E → P → Prop} {qs : List E}
    (h : ∀ q ∈ qs, ∀ s, ∃ pf s', prove q s = .ok (pf, s') ∧ good q pf) (rng : ρ) :
    ∃ pfs rng', proveAll prove qs rng = .ok (pfs, rng') ∧ List.Forall₂ good qs pfs := by
  induction qs generalizing rng with
  | nil => exact ⟨[], rng, rfl, .nil⟩
  | cons q qs ih =>
    obtain ⟨pf, s, h1, g1⟩ := h q (by simp) rng
    obtain ⟨pfs, s', h2, g2⟩ := ih (fun q hq => h q (by simp [hq])) s
    exact ⟨pf :: pfs, s', by simp [proveAll, h1, h2], .cons g1 g2⟩

/-- C21, PPE: one proof for each equation (each with its own schedules), and each of them verifies with the shared
commitments. -/
theorem C21_ppe (hu : key.u.length = 2) (hv : key.v.length = 2) (equs : List (PPE F G1 G2 GT × (Nat → Scheduler)))
    (x : List G1) (y : List G2) (xc : Commit F G1) (yc : Commit F G2) (hx : x ≠ []) (hy : y ≠ [])
    (hxc : xc.OpensGroup key.u x) (hyc : yc.OpensGroup key.v y)
    (hq : ∀ q ∈ equs, q.1.Dims x.length y.length ∧ q.1.Holds e x y) (rng : ρ) :
    ∃ pfs rng', proveAll (fun q s => q.1.prove q.2 x y xc yc key s) equs rng = .ok (pfs, rng') ∧
      List.Forall₂ (fun q pf => ∀ sch', q.1.verify e sch' ⟨xc, yc, [pf]⟩ key = .ok true) equs pfs := by
  refine proveAll_forall₂ (fun q hmem s => ?_) rng
  obtain ⟨pf, r3, h3, -, -, -, h4⟩ := PPE.honest e q.2 q.1 x y xc yc key s hx hy (hq q hmem).1 hu hv hxc hyc
  refine ⟨pf, r3, h3, fun sch' => ?_⟩
  obtain ⟨b, hb, hb'⟩ := h4 sch' ⟨xc, yc, [pf]⟩ rfl rfl rfl
  rwa [hb'.mpr (hq q hmem).2] at hb

/-- C21, MSMEG1. -/
theorem C21_msmeg1 (hu : key.u.length = 2) (hv : 2 ≤ key.v.length) (equs : List (MSMEG1 F G1 × (Nat → Scheduler)))
    (x : List G1) (y : List F) (xc : Commit F G1) (yc : Commit F G2) (hx : x ≠ []) (hy : y ≠ [])
    (hxc : xc.OpensGroup key.u x) (hyc : yc.OpensScalar key.v key.g2_gen y)
    (hq : ∀ q ∈ equs, q.1.Dims x.length y.length ∧ q.1.Holds x y) (rng : ρ) :
    ∃ pfs rng', proveAll (fun q s => q.1.prove q.2 x y xc yc key s) equs rng = .ok (pfs, rng') ∧
      List.Forall₂ (fun q pf => ∀ sch', q.1.verify e sch' ⟨xc, yc, [pf]⟩ key = .ok true) equs pfs := by
  refine proveAll_forall₂ (fun q hmem s => ?_) rng
  obtain ⟨v0, v1, v', hv⟩ := cons2_of_length hv
  obtain ⟨pf, r3, h3, -, -, -, h4⟩ := MSMEG1.honest e q.2 q.1 x y xc yc key s hx hy (hq q hmem).1 hu hv hxc hyc
  refine ⟨pf, r3, h3, fun sch' => ?_⟩
  obtain ⟨b, hb, hb'⟩ := h4 sch' ⟨xc, yc, [pf]⟩ rfl rfl rfl
  rwa [hb'.mpr (congrArg _ (hq q hmem).2)] at hb

/-- C21, MSMEG2. -/
theorem C21_msmeg2 (hu : 2 ≤ key.u.length) (hv : key.v.length = 2) (equs : List (MSMEG2 F G2 × (Nat → Scheduler)))
    (x : List F) (y : List G2) (xc : Commit F G1) (yc : Commit F G2) (hx : x ≠ []) (hy : y ≠ [])
    (hxc : xc.OpensScalar key.u key.g1_gen x) (hyc : yc.OpensGroup key.v y)
    (hq : ∀ q ∈ equs, q.1.Dims x.length y.length ∧ q.1.Holds x y) (rng : ρ) :
    ∃ pfs rng', proveAll (fun q s => q.1.prove q.2 x y xc yc key s) equs rng = .ok (pfs, rng') ∧
      List.Forall₂ (fun q pf => ∀ sch', q.1.verify e sch' ⟨xc, yc, [pf]⟩ key = .ok true) equs pfs := by
  refine proveAll_forall₂ (fun q hmem s => ?_) rng
  obtain ⟨u0, u1, u', hu⟩ := cons2_of_length hu
  obtain ⟨pf, r3, h3, -, -, -, h4⟩ := MSMEG2.honest e q.2 q.1 x y xc yc key s hx hy (hq q hmem).1 hu hv hxc hyc
  refine ⟨pf, r3, h3, fun sch' => ?_⟩
  obtain ⟨b, hb, hb'⟩ := h4 sch' ⟨xc, yc, [pf]⟩ rfl rfl rfl
  rwa [hb'.mpr (congrArg _ (hq q hmem).2)] at hb

/-- C21, QuadEqu. -/
theorem C21_quad (hu : 2 ≤ key.u.length) (hv : 2 ≤ key.v.length) (equs : List (QuadEqu F × (Nat → Scheduler)))
    (x y : List F) (xc : Commit F G1) (yc : Commit F G2) (hx : x ≠ []) (hy : y ≠ [])
    (hxc : xc.OpensScalar key.u key.g1_gen x) (hyc : yc.OpensScalar key.v key.g2_gen y)
    (hq : ∀ q ∈ equs, q.1.Dims x.length y.length ∧ q.1.Holds x y) (rng : ρ) :
    ∃ pfs rng', proveAll (fun q s => q.1.prove q.2 x y xc yc key s) equs rng = .ok (pfs, rng') ∧
      List.Forall₂ (fun q pf => ∀ sch', q.1.verify e sch' ⟨xc, yc, [pf]⟩ key = .ok true) equs pfs := by
  refine proveAll_forall₂ (fun q hmem s => ?_) rng
  obtain ⟨u0, u1, u', hu⟩ := cons2_of_length hu
  obtain ⟨v0, v1, v', hv⟩ := cons2_of_length hv
  obtain ⟨pf, r3, h3, -, -, -, h4⟩ := QuadEqu.honest e q.2 q.1 x y xc yc key s hx hy (hq q hmem).1 hu hv hxc hyc
  refine ⟨pf, r3, h3, fun sch' => ?_⟩
  obtain ⟨b, hb, hb'⟩ := h4 sch' ⟨xc, yc, [pf]⟩ rfl rfl rfl
  rwa [hb'.mpr (congrArg _ (hq q hmem).2)] at hb

/-- The hypotheses of C21 are met by two equations over the commitments of one batch. -/
example (s1 s2 : Nat → Scheduler) : ∃ (xc : Commit Ex.K Ex.K) (yc : Commit Ex.K Ex.K) (pfs : List _) (rng' : Nat),
    proveAll (fun q s => q.1.prove q.2 [2] [3, 4] xc yc Ex.crs7 s)
      [(Ex.ppe7, s1), ((⟨[1, 0], [0], [[0, 0]], 3⟩ : PPE Ex.K Ex.K Ex.K Ex.K), s2)] (0 : Nat) = .ok (pfs, rng') ∧
    pfs.length = 2 := by
  obtain ⟨xc, r1, -, o1⟩ := batchCommitG1_opens (F := Ex.K) (x := [(2 : Ex.K)]) (key := Ex.crs7) (rng := (0 : Nat))
    (by simp) rfl
  obtain ⟨yc, r2, -, o2⟩ := batchCommitG2_opens (F := Ex.K) (x := [(3 : Ex.K), 4]) (key := Ex.crs7) (rng := r1)
    (by simp) rfl
  obtain ⟨pfs, r3, h, hf⟩ := C21_ppe Ex.e7 (key := Ex.crs7) rfl rfl
    [(Ex.ppe7, s1), ((⟨[1, 0], [0], [[0, 0]], 3⟩ : PPE Ex.K Ex.K Ex.K Ex.K), s2)] [2] [3, 4] xc yc (by simp) (by simp)
    o1 o2 (by
      intro q hq
      simp only [List.mem_cons, List.not_mem_nil, or_false] at hq
      rcases hq with rfl | rfl
      · exact ⟨Ex.ppe7_dims, Ex.ppe7_holds⟩
      · exact ⟨by constructor <;> simp, by unfold PPE.Holds; dsimp only; decide⟩) (0 : Nat)
  exact ⟨xc, yc, pfs, r3, h, hf.length_eq.symm⟩

/-- C21, PPE, for commitments made by any histories of `commit_*`, `batch_commit_*` and `append`. -/
theorem C21_ppe_history (hu : key.u.length = 2) (hv : key.v.length = 2) (equs : List (PPE F G1 G2 GT × (Nat → Scheduler)))
    (hx : Hist G1) (hy : Hist G2) (hhx : hx.NoEmptyBatch) (hhy : hy.NoEmptyBatch)
    (hq : ∀ q ∈ equs, q.1.Dims hx.values.length hy.values.length ∧ q.1.Holds e hx.values hy.values) (rng : ρ) :
    ∃ xc r1 yc r2 pfs r3, histG1 key F hx rng = .ok (xc, r1) ∧ histG2 key F hy r1 = .ok (yc, r2) ∧
      proveAll (fun q s => q.1.prove q.2 hx.values hy.values xc yc key s) equs r2 = .ok (pfs, r3) ∧
      List.Forall₂ (fun q pf => ∀ sch', q.1.verify e sch' ⟨xc, yc, [pf]⟩ key = .ok true) equs pfs := by
  obtain ⟨xc, r1, h1, o1⟩ := C20_history_G1 (F := F) hu hx hhx rng
  obtain ⟨yc, r2, h2, o2⟩ := C20_history_G2 (F := F) hv hy hhy r1
  obtain ⟨pfs, r3, h3, h4⟩ := C21_ppe e hu hv equs _ _ xc yc (Hist.values_ne hhx) (Hist.values_ne hhy) o1 o2 hq r2
  exact ⟨xc, r1, yc, r2, pfs, r3, h1, h2, h3, h4⟩

/-- C21, MSMEG1, for commitments made by any histories of `commit_*`, `batch_commit_*` and `append`. -/
theorem C21_msmeg1_history (hu : key.u.length = 2) (hv : 2 ≤ key.v.length) (equs : List (MSMEG1 F G1 × (Nat → Scheduler)))
    (hx : Hist G1) (hy : Hist F) (hhx : hx.NoEmptyBatch) (hhy : hy.NoEmptyBatch)
    (hq : ∀ q ∈ equs, q.1.Dims hx.values.length hy.values.length ∧ q.1.Holds hx.values hy.values) (rng : ρ) :
    ∃ xc r1 yc r2 pfs r3, histG1 key F hx rng = .ok (xc, r1) ∧ histB2 key hy r1 = .ok (yc, r2) ∧
      proveAll (fun q s => q.1.prove q.2 hx.values hy.values xc yc key s) equs r2 = .ok (pfs, r3) ∧
      List.Forall₂ (fun q pf => ∀ sch', q.1.verify e sch' ⟨xc, yc, [pf]⟩ key = .ok true) equs pfs := by
  obtain ⟨xc, r1, h1, o1⟩ := C20_history_G1 (F := F) hu hx hhx rng
  obtain ⟨yc, r2, h2, o2⟩ := C20_history_B2 (F := F) hv hy hhy r1
  obtain ⟨pfs, r3, h3, h4⟩ := C21_msmeg1 e hu hv equs _ _ xc yc (Hist.values_ne hhx) (Hist.values_ne hhy) o1 o2 hq r2
  exact ⟨xc, r1, yc, r2, pfs, r3, h1, h2, h3, h4⟩

/-- C21, MSMEG2, for commitments made by any histories of `commit_*`, `batch_commit_*` and `append`. -/
theorem C21_msmeg2_history (hu : 2 ≤ key.u.length) (hv : key.v.length = 2) (equs : List (MSMEG2 F G2 × (Nat → Scheduler)))
    (hx : Hist F) (hy : Hist G2) (hhx : hx.NoEmptyBatch) (hhy : hy.NoEmptyBatch)
    (hq : ∀ q ∈ equs, q.1.Dims hx.values.length hy.values.length ∧ q.1.Holds hx.values hy.values) (rng : ρ) :
    ∃ xc r1 yc r2 pfs r3, histB1 key hx rng = .ok (xc, r1) ∧ histG2 key F hy r1 = .ok (yc, r2) ∧
      proveAll (fun q s => q.1.prove q.2 hx.values hy.values xc yc key s) equs r2 = .ok (pfs, r3) ∧
      List.Forall₂ (fun q pf => ∀ sch', q.1.verify e sch' ⟨xc, yc, [pf]⟩ key = .ok true) equs pfs := by
  obtain ⟨xc, r1, h1, o1⟩ := C20_history_B1 (F := F) hu hx hhx rng
  obtain ⟨yc, r2, h2, o2⟩ := C20_history_G2 (F := F) hv hy hhy r1
  obtain ⟨pfs, r3, h3, h4⟩ := C21_msmeg2 e hu hv equs _ _ xc yc (Hist.values_ne hhx) (Hist.values_ne hhy) o1 o2 hq r2
  exact ⟨xc, r1, yc, r2, pfs, r3, h1, h2, h3, h4⟩

/-- C21, QuadEqu, for commitments made by any histories of `commit_*`, `batch_commit_*` and `append`. -/
theorem C21_quad_history (hu : 2 ≤ key.u.length) (hv : 2 ≤ key.v.length) (equs : List (QuadEqu F × (Nat → Scheduler)))
    (hx : Hist F) (hy : Hist F) (hhx : hx.NoEmptyBatch) (hhy : hy.NoEmptyBatch)
    (hq : ∀ q ∈ equs, q.1.Dims hx.values.length hy.values.length ∧ q.1.Holds hx.values hy.values) (rng : ρ) :
    ∃ xc r1 yc r2 pfs r3, histB1 key hx rng = .ok (xc, r1) ∧ histB2 key hy r1 = .ok (yc, r2) ∧
      proveAll (fun q s => q.1.prove q.2 hx.values hy.values xc yc key s) equs r2 = .ok (pfs, r3) ∧
      List.Forall₂ (fun q pf => ∀ sch', q.1.verify e sch' ⟨xc, yc, [pf]⟩ key = .ok true) equs pfs := by
  obtain ⟨xc, r1, h1, o1⟩ := C20_history_B1 (F := F) hu hx hhx rng
  obtain ⟨yc, r2, h2, o2⟩ := C20_history_B2 (F := F) hv hy hhy r1
  obtain ⟨pfs, r3, h3, h4⟩ := C21_quad e hu hv equs _ _ xc yc (Hist.values_ne hhx) (Hist.values_ne hhy) o1 o2 hq r2
  exact ⟨xc, r1, yc, r2, pfs, r3, h1, h2, h3, h4⟩

example (s1 s2 : Nat → Scheduler) :=
  C21_ppe_history Ex.e7 (key := Ex.crs7) rfl rfl
    [(Ex.ppe7, s1), ((⟨[1, 0], [0], [[0, 0]], 3⟩ : PPE Ex.K Ex.K Ex.K Ex.K), s2)] (.single 2) (.append (.batch [3]) (.single 4))
    trivial ⟨by simp [Hist.NoEmptyBatch], trivial⟩ (by
      intro q hq
      simp only [List.mem_cons, List.not_mem_nil, or_false] at hq
      rcases hq with rfl | rfl
      · exact ⟨Ex.ppe7_dims, Ex.ppe7_holds⟩
      · exact ⟨by constructor <;> simp [Hist.values], by unfold PPE.Holds; dsimp only; decide⟩) (0 : Nat)

end hist

/-! ### C46 -/

section homomorphic
variable {G : Type} [AddCommGroup G] [Module F G]

theorem groupCom_add (u0 u1 : Com G) (x x' : G) (r r' : F × F) :
    Com.add (groupCom u0 u1 x r) (groupCom u0 u1 x' r') = groupCom u0 u1 (x + x') (r + r') := by
  have : (⟨0, x + x'⟩ : Com G) = ⟨0, x⟩ + ⟨0, x'⟩ := by ext <;> simp
  change groupCom u0 u1 x r + groupCom u0 u1 x' r' = _
  simp only [groupCom, this, Prod.fst_add, Prod.snd_add]
  module

theorem scalarCom_add (u0 u1 : Com G) (g : G) (x x' r r' : F) :
    Com.add (scalarCom u0 u1 g x r) (scalarCom u0 u1 g x' r') = scalarCom u0 u1 g (x + x') (r + r') := by
  change scalarCom u0 u1 g x r + scalarCom u0 u1 g x' r' = _
  simp only [scalarCom]
  module

theorem groupCom_smul (u0 u1 : Com G) (x : G) (r : F × F) (s : F) :
    (groupCom u0 u1 x r).scalarMul s = groupCom u0 u1 (s • x) (s * r.1, s * r.2) := by
  have : (⟨0, s • x⟩ : Com G) = s • ⟨0, x⟩ := by ext <;> simp
  rw [Com.scalarMul_eq]
  simp only [groupCom, this]
  module

theorem scalarCom_smul (u0 u1 : Com G) (g : G) (x r s : F) :
    (scalarCom u0 u1 g x r).scalarMul s = scalarCom u0 u1 g (s * x) (s * r) := by
  rw [Com.scalarMul_eq]
  simp only [scalarCom]
  module

/-- C46: sums of openings open to the sums (group elements, either side). -/
theorem C46_opens_group_add (u : List (Com G)) (c c' : Commit F G) (x x' : List G) (hl : x.length = x'.length)
    (h : c.OpensGroup u x) (h' : c'.OpensGroup u x') : (c.sum c').OpensGroup u (List.zipWith (· + ·) x x') := by
  obtain ⟨u0, u1, ul, hu, R, hR, h1, h2⟩ := h
  obtain ⟨v0, v1, vl, hv, R', hR', h1', h2'⟩ := h'
  rw [hu] at hv; cases hv
  refine ⟨u0, u1, ul, hu, List.zipWith (· + ·) R R', by simp [hR, hR'], ?_, ?_⟩
  · simp [Commit.sum, h1, h1', List.zipWith_map_left, List.zipWith_map_right, List.map_zipWith]
  · simp only [Commit.sum, h2, h2']
    apply List.ext_getElem
    · simp [hR, hR']
    · intro i _ _
      simp only [List.getElem_zipWith, groupCom_add]

/-- C46: sums of openings open to the sums (scalars, either side). -/
theorem C46_opens_scalar_add (u : List (Com G)) (g : G) (c c' : Commit F G) (x x' : List F)
    (hl : x.length = x'.length)
    (h : c.OpensScalar u g x) (h' : c'.OpensScalar u g x') :
    (c.sum c').OpensScalar u g (List.zipWith (· + ·) x x') := by
  obtain ⟨u0, u1, ul, hu, R, hR, h1, h2⟩ := h
  obtain ⟨v0, v1, vl, hv, R', hR', h1', h2'⟩ := h'
  rw [hu] at hv; cases hv
  refine ⟨u0, u1, ul, hu, List.zipWith (· + ·) R R', by simp [hR, hR'], ?_, ?_⟩
  · simp [Commit.sum, h1, h1', List.zipWith_map_left, List.zipWith_map_right, List.map_zipWith]
  · simp only [Commit.sum, h2, h2']
    apply List.ext_getElem
    · simp [hR, hR']
    · intro i _ _
      simp only [List.getElem_zipWith, scalarCom_add]

/-- C46: multiples. -/
theorem C46_opens_group_smul (u : List (Com G)) (s : F) (c : Commit F G) (x : List G)
    (h : c.OpensGroup u x) : (c.scale s).OpensGroup u (x.map (s • ·)) := by
  obtain ⟨u0, u1, ul, hu, R, hR, h1, h2⟩ := h
  refine ⟨u0, u1, ul, hu, R.map fun r => (s * r.1, s * r.2), by simp [hR], ?_, ?_⟩
  · simp [Commit.scale, h1]
  · simp only [Commit.scale, h2]
    apply List.ext_getElem
    · simp
    · intro i _ _
      simp only [List.getElem_zipWith, List.getElem_map, groupCom_smul]

/-- C46: multiples. -/
theorem C46_opens_scalar_smul (u : List (Com G)) (g : G) (s : F) (c : Commit F G) (x : List F)
    (h : c.OpensScalar u g x) : (c.scale s).OpensScalar u g (x.map (s * ·)) := by
  obtain ⟨u0, u1, ul, hu, R, hR, h1, h2⟩ := h
  refine ⟨u0, u1, ul, hu, R.map (s * ·), by simp [hR], ?_, ?_⟩
  · simp [Commit.scale, h1]
  · simp only [Commit.scale, h2]
    apply List.ext_getElem
    · simp
    · intro i _ _
      simp only [List.getElem_zipWith, List.getElem_map, scalarCom_smul]

/-- Committing again on the tape of recorded randomness reproduces an opening. -/
theorem recommit_group1 {key : CRS G1 G2 GT} (hu : key.u.length = 2) {c : Commit F G1} {x : List G1} (hx : x ≠ [])
    (h : c.OpensGroup key.u x) : batchCommitG1 x key c.rand.flatten = .ok (c, ([] : List F)) := by
  obtain ⟨u0, u1, ul, hu', R, hR, h1, h2⟩ := h
  have : ul = [] := by rw [hu'] at hu; simpa using hu
  subst this
  refine batchCommitG1_iff.mpr ⟨hx, u0, u1, hu', ?_⟩
  have := drawPairs_tape (G1 := G1) (G2 := G2) R []
  rw [List.append_nil, hR, ← h1] at this
  rw [this]
  ext1
  · cases c; simp only [Commit.mk.injEq] at h1 h2 ⊢; exact ⟨h2, h1⟩
  · rfl

theorem recommit_group2 {key : CRS G1 G2 GT} (hu : key.v.length = 2) {c : Commit F G2} {x : List G2} (hx : x ≠ [])
    (h : c.OpensGroup key.v x) : batchCommitG2 x key c.rand.flatten = .ok (c, ([] : List F)) := by
  obtain ⟨u0, u1, ul, hu', R, hR, h1, h2⟩ := h
  have : ul = [] := by rw [hu'] at hu; simpa using hu
  subst this
  refine batchCommitG2_iff.mpr ⟨hx, u0, u1, hu', ?_⟩
  have := drawPairs_tape (G1 := G1) (G2 := G2) R []
  rw [List.append_nil, hR, ← h1] at this
  rw [this]
  ext1
  · cases c; simp only [Commit.mk.injEq] at h1 h2 ⊢; exact ⟨h2, h1⟩
  · rfl

theorem recommit_scalar1 {key : CRS G1 G2 GT} {c : Commit F G1} {x : List F} (hx : x ≠ [])
    (h : c.OpensScalar key.u key.g1_gen x) : batchCommitScalarToB1 x key c.rand.flatten = .ok (c, ([] : List F)) := by
  obtain ⟨u0, u1, ul, hu', R, hR, h1, h2⟩ := h
  refine batchCommitScalarToB1_iff.mpr ⟨hx, u0, u1, ul, hu', ?_⟩
  have := drawF_tape (G1 := G1) (G2 := G2) R []
  rw [List.append_nil, hR] at this
  rw [h1, flatten_singletons, this]
  ext1
  · cases c; simp only [Commit.mk.injEq] at h1 h2 ⊢; exact ⟨h2, h1⟩
  · rfl

theorem recommit_scalar2 {key : CRS G1 G2 GT} {c : Commit F G2} {x : List F} (hx : x ≠ [])
    (h : c.OpensScalar key.v key.g2_gen x) : batchCommitScalarToB2 x key c.rand.flatten = .ok (c, ([] : List F)) := by
  obtain ⟨u0, u1, ul, hu', R, hR, h1, h2⟩ := h
  refine batchCommitScalarToB2_iff.mpr ⟨hx, u0, u1, ul, hu', ?_⟩
  have := drawF_tape (G1 := G1) (G2 := G2) R []
  rw [List.append_nil, hR] at this
  rw [h1, flatten_singletons, this]
  ext1
  · cases c; simp only [Commit.mk.injEq] at h1 h2 ⊢; exact ⟨h2, h1⟩
  · rfl

/-- C46: adding two batch commitments entrywise gives the batch commitment to the sums, made with the sum of the
random draws; `G1`. -/
theorem C46_batch_G1_add (key : CRS G1 G2 GT) (x x' : List G1) (hl : x.length = x'.length) (rng rng' s s' : ρ)
    (c c' : Commit F G1) (h : batchCommitG1 x key rng = .ok (c, s)) (h' : batchCommitG1 x' key rng' = .ok (c', s')) :
    batchCommitG1 (List.zipWith (· + ·) x x') key (c.sum c').rand.flatten = .ok (c.sum c', ([] : List F)) := by
  obtain ⟨hx, u0, u1, hu, -⟩ := batchCommitG1_iff.mp h
  obtain ⟨hx', -⟩ := batchCommitG1_iff.mp h'
  have hu2 : key.u.length = 2 := by rw [hu]; rfl
  obtain ⟨d, t, hd, o⟩ := batchCommitG1_opens (F := F) (rng := rng) hx hu2
  obtain ⟨d', t', hd', o'⟩ := batchCommitG1_opens (F := F) (rng := rng') hx' hu2
  rw [h] at hd; cases hd; rw [h'] at hd'; cases hd'
  exact recommit_group1 hu2 (by simpa using ⟨hx, hx'⟩) (C46_opens_group_add _ _ _ _ _ hl o o')

/-- C46, `G2`. -/
theorem C46_batch_G2_add (key : CRS G1 G2 GT) (x x' : List G2) (hl : x.length = x'.length) (rng rng' s s' : ρ)
    (c c' : Commit F G2) (h : batchCommitG2 x key rng = .ok (c, s)) (h' : batchCommitG2 x' key rng' = .ok (c', s')) :
    batchCommitG2 (List.zipWith (· + ·) x x') key (c.sum c').rand.flatten = .ok (c.sum c', ([] : List F)) := by
  obtain ⟨hx, u0, u1, hu, -⟩ := batchCommitG2_iff.mp h
  obtain ⟨hx', -⟩ := batchCommitG2_iff.mp h'
  have hu2 : key.v.length = 2 := by rw [hu]; rfl
  obtain ⟨d, t, hd, o⟩ := batchCommitG2_opens (F := F) (rng := rng) hx hu2
  obtain ⟨d', t', hd', o'⟩ := batchCommitG2_opens (F := F) (rng := rng') hx' hu2
  rw [h] at hd; cases hd; rw [h'] at hd'; cases hd'
  exact recommit_group2 hu2 (by simpa using ⟨hx, hx'⟩) (C46_opens_group_add _ _ _ _ _ hl o o')

/-- C46, scalars on the `G1` side. -/
theorem C46_batch_B1_add (key : CRS G1 G2 GT) (x x' : List F) (hl : x.length = x'.length) (rng rng' s s' : ρ)
    (c c' : Commit F G1) (h : batchCommitScalarToB1 x key rng = .ok (c, s))
    (h' : batchCommitScalarToB1 x' key rng' = .ok (c', s')) :
    batchCommitScalarToB1 (List.zipWith (· + ·) x x') key (c.sum c').rand.flatten = .ok (c.sum c', ([] : List F)) := by
  obtain ⟨hx, u0, u1, u', hu, -⟩ := batchCommitScalarToB1_iff.mp h
  obtain ⟨hx', -⟩ := batchCommitScalarToB1_iff.mp h'
  have hu2 : 2 ≤ key.u.length := by rw [hu]; simp
  obtain ⟨d, t, hd, o⟩ := batchCommitScalarToB1_opens (F := F) (rng := rng) hx hu2
  obtain ⟨d', t', hd', o'⟩ := batchCommitScalarToB1_opens (F := F) (rng := rng') hx' hu2
  rw [h] at hd; cases hd; rw [h'] at hd'; cases hd'
  exact recommit_scalar1 (by simpa using ⟨hx, hx'⟩) (C46_opens_scalar_add _ _ _ _ _ _ hl o o')

/-- C46, scalars on the `G2` side. -/
theorem C46_batch_B2_add (key : CRS G1 G2 GT) (x x' : List F) (hl : x.length = x'.length) (rng rng' s s' : ρ)
    (c c' : Commit F G2) (h : batchCommitScalarToB2 x key rng = .ok (c, s))
    (h' : batchCommitScalarToB2 x' key rng' = .ok (c', s')) :
    batchCommitScalarToB2 (List.zipWith (· + ·) x x') key (c.sum c').rand.flatten = .ok (c.sum c', ([] : List F)) := by
  obtain ⟨hx, u0, u1, u', hu, -⟩ := batchCommitScalarToB2_iff.mp h
  obtain ⟨hx', -⟩ := batchCommitScalarToB2_iff.mp h'
  have hu2 : 2 ≤ key.v.length := by rw [hu]; simp
  obtain ⟨d, t, hd, o⟩ := batchCommitScalarToB2_opens (F := F) (rng := rng) hx hu2
  obtain ⟨d', t', hd', o'⟩ := batchCommitScalarToB2_opens (F := F) (rng := rng') hx' hu2
  rw [h] at hd; cases hd; rw [h'] at hd'; cases hd'
  exact recommit_scalar2 (by simpa using ⟨hx, hx'⟩) (C46_opens_scalar_add _ _ _ _ _ _ hl o o')

/-- C46: scaling a batch commitment gives the batch commitment to the scaled values, made with the scaled draws; all
four kinds. -/
theorem C46_batch_smul (key : CRS G1 G2 GT) (s : F) (rng t : ρ) :
    (∀ (x : List G1) (c : Commit F G1), batchCommitG1 x key rng = .ok (c, t) →
      batchCommitG1 (x.map (s • ·)) key (c.scale s).rand.flatten = .ok (c.scale s, ([] : List F))) ∧
    (∀ (x : List G2) (c : Commit F G2), batchCommitG2 x key rng = .ok (c, t) →
      batchCommitG2 (x.map (s • ·)) key (c.scale s).rand.flatten = .ok (c.scale s, ([] : List F))) ∧
    (∀ (x : List F) (c : Commit F G1), batchCommitScalarToB1 x key rng = .ok (c, t) →
      batchCommitScalarToB1 (x.map (s * ·)) key (c.scale s).rand.flatten = .ok (c.scale s, ([] : List F))) ∧
    (∀ (x : List F) (c : Commit F G2), batchCommitScalarToB2 x key rng = .ok (c, t) →
      batchCommitScalarToB2 (x.map (s * ·)) key (c.scale s).rand.flatten = .ok (c.scale s, ([] : List F))) := by
  refine ⟨?_, ?_, ?_, ?_⟩ <;> intro x c h
  · obtain ⟨hx, u0, u1, hu, -⟩ := batchCommitG1_iff.mp h
    have hu2 : key.u.length = 2 := by rw [hu]; rfl
    obtain ⟨d, t, hd, o⟩ := batchCommitG1_opens (F := F) (rng := rng) hx hu2
    rw [h] at hd; cases hd
    exact recommit_group1 hu2 (by simpa using hx) (C46_opens_group_smul _ _ _ _ o)
  · obtain ⟨hx, u0, u1, hu, -⟩ := batchCommitG2_iff.mp h
    have hu2 : key.v.length = 2 := by rw [hu]; rfl
    obtain ⟨d, t, hd, o⟩ := batchCommitG2_opens (F := F) (rng := rng) hx hu2
    rw [h] at hd; cases hd
    exact recommit_group2 hu2 (by simpa using hx) (C46_opens_group_smul _ _ _ _ o)
  · obtain ⟨hx, u0, u1, u', hu, -⟩ := batchCommitScalarToB1_iff.mp h
    have hu2 : 2 ≤ key.u.length := by rw [hu]; simp
    obtain ⟨d, t, hd, o⟩ := batchCommitScalarToB1_opens (F := F) (rng := rng) hx hu2
    rw [h] at hd; cases hd
    exact recommit_scalar1 (by simpa using hx) (C46_opens_scalar_smul _ _ _ _ _ o)
  · obtain ⟨hx, u0, u1, u', hu, -⟩ := batchCommitScalarToB2_iff.mp h
    have hu2 : 2 ≤ key.v.length := by rw [hu]; simp
    obtain ⟨d, t, hd, o⟩ := batchCommitScalarToB2_opens (F := F) (rng := rng) hx hu2
    rw [h] at hd; cases hd
    exact recommit_scalar2 (by simpa using hx) (C46_opens_scalar_smul _ _ _ _ _ o)

/-- The hypotheses of C46 are met by two batches of two values. -/
example : ∃ c c' : Commit Ex.K Ex.K, ∃ s s' : Nat, batchCommitG1 [3, 4] Ex.crs7 (0 : Nat) = .ok (c, s) ∧
    batchCommitG1 [1, 5] Ex.crs7 (4 : Nat) = .ok (c', s') ∧
    batchCommitG1 (List.zipWith (· + ·) [3, 4] [1, 5]) Ex.crs7 (c.sum c').rand.flatten = .ok (c.sum c', ([] : List Ex.K)) := by
  obtain ⟨c, s, h, -⟩ := batchCommitG1_opens (F := Ex.K) (x := [(3 : Ex.K), 4]) (key := Ex.crs7) (rng := (0 : Nat))
    (by simp) rfl
  obtain ⟨c', s', h', -⟩ := batchCommitG1_opens (F := Ex.K) (x := [(1 : Ex.K), 5]) (key := Ex.crs7) (rng := (4 : Nat))
    (by simp) rfl
  exact ⟨c, c', s, s', h, h', C46_batch_G1_add _ [3, 4] [1, 5] rfl _ _ _ _ c c' h h'⟩

end homomorphic

/-! ### Instances -/

namespace Ex

section
variable (s1 s2 : Nat → Scheduler)

example := C19_append ppe7_msg.xcoms ppe7_msg.ycoms rfl rfl
example := C19_append_all ppe7_msg.xcoms [ppe7_msg.ycoms, ppe7_msg.xcoms] (by simp [ppe7_msg])
example := C20_history_G1 (F := K) (key := crs7) rfl (.append (.batch [3, 1]) (.single 4)) ⟨by simp [Hist.NoEmptyBatch], trivial⟩ (0 : Nat)
example := C20_history_G2 (F := K) (key := crs7) rfl (.append (.batch [3, 1]) (.single 4)) ⟨by simp [Hist.NoEmptyBatch], trivial⟩ (0 : Nat)
theorem msm1_7_both : ∀ q ∈ [(msm1_7, s1), ((⟨[1, 0], [0], [[0, 0]], 3⟩ : MSMEG1 K K), s2)], q.1.Dims 1 2 ∧ q.1.Holds [2] [3, 4] := by
  intro q hq
  simp only [List.mem_cons, List.not_mem_nil, or_false] at hq
  rcases hq with rfl | rfl
  · exact ⟨msm1_7_dims, msm1_7_holds⟩
  · exact ⟨by constructor <;> simp, by unfold MSMEG1.Holds; exact (by decide : (3 : K) = 3)⟩
example := C21_msmeg1 e7 (key := crs7) rfl (by decide) _ [2] [3, 4] _ _ (by simp) (by simp) msm1_7_xopens msm1_7_yopens (msm1_7_both s1 s2) (0 : Nat)
example := C21_msmeg1_history e7 (key := crs7) rfl (by decide) _ (.single 2) (.append (.batch [3]) (.single 4)) trivial
  ⟨by simp [Hist.NoEmptyBatch], trivial⟩ (msm1_7_both s1 s2) (0 : Nat)
theorem msm2_7_both : ∀ q ∈ [(msm2_7, s1), ((⟨[1, 0], [0], [[0, 0]], 3⟩ : MSMEG2 K K), s2)], q.1.Dims 1 2 ∧ q.1.Holds [2] [3, 4] := by
  intro q hq
  simp only [List.mem_cons, List.not_mem_nil, or_false] at hq
  rcases hq with rfl | rfl
  · exact ⟨msm2_7_dims, msm2_7_holds⟩
  · exact ⟨by constructor <;> simp, by unfold MSMEG2.Holds; exact (by decide : (3 : K) = 3)⟩
example := C21_msmeg2 e7 (key := crs7) (by decide) rfl _ [2] [3, 4] _ _ (by simp) (by simp) msm2_7_xopens msm2_7_yopens (msm2_7_both s1 s2) (0 : Nat)
example := C21_msmeg2_history e7 (key := crs7) (by decide) rfl _ (.single 2) (.append (.batch [3]) (.single 4)) trivial
  ⟨by simp [Hist.NoEmptyBatch], trivial⟩ (msm2_7_both s1 s2) (0 : Nat)
theorem quad7_both : ∀ q ∈ [(quad7, s1), ((⟨[1, 0], [0], [[0, 0]], 3⟩ : QuadEqu K), s2)], q.1.Dims 1 2 ∧ q.1.Holds [2] [3, 4] := by
  intro q hq
  simp only [List.mem_cons, List.not_mem_nil, or_false] at hq
  rcases hq with rfl | rfl
  · exact ⟨quad7_dims, quad7_holds⟩
  · exact ⟨by constructor <;> simp, by unfold QuadEqu.Holds; exact (by decide : (3 : K) = 3)⟩
example := C21_quad e7 (key := crs7) (by decide) (by decide) _ [2] [3, 4] _ _ (by simp) (by simp) quad7_xopens quad7_yopens (quad7_both s1 s2) (0 : Nat)
example := C21_quad_history e7 (key := crs7) (by decide) (by decide) _ (.single 2) (.append (.batch [3]) (.single 4)) trivial
  ⟨by simp [Hist.NoEmptyBatch], trivial⟩ (quad7_both s1 s2) (0 : Nat)
example := C46_opens_group_add crs7.v _ _ [3, 4] [3, 4] rfl ppe7_yopens msm2_7_yopens
example := C46_opens_scalar_add crs7.v crs7.g2_gen _ _ [3, 4] [3, 4] rfl msm1_7_yopens quad7_yopens
example := C46_opens_group_smul crs7.v (5 : K) _ [3, 4] ppe7_yopens
example := C46_opens_scalar_smul crs7.v crs7.g2_gen (5 : K) _ [3, 4] msm1_7_yopens
example := C46_batch_G2_add (F := K) crs7 [3, 4] [1, 5] rfl (0 : Nat) 4 _ _ _ _ rfl rfl
example := C46_batch_B1_add (F := K) crs7 [3, 4] [1, 5] rfl (0 : Nat) 4 _ _ _ _ rfl rfl
example := C46_batch_B2_add (F := K) crs7 [3, 4] [1, 5] rfl (0 : Nat) 4 _ _ _ _ rfl rfl

end

end Ex

end GS
