import Verif.Spec.Adaptive
import Verif.Lemmas.Joint
import Verif.Lemmas.Session
import Verif.Props.Randomness

/-! # Two programs that differ in their secrets, on a simulated CRS -/

set_option linter.unusedSectionVars false
set_option linter.unusedVariables false

namespace GS.Adaptive

section side
variable {F G : Type} [Field F] [AddCommGroup G] [Module F G]

/-- The same commitment values, opening to `vs` in one world and to `vs'`, of the same kinds, in the other. -/
structure SameSide (u : List (Com G)) (gen : G) (c c' : Commit F G) (vs vs' : List (Val F G)) : Prop where
  coms : c.coms = c'.coms
  opens : AllOpen u gen c.coms c.rand vs
  opens' : AllOpen u gen c'.coms c'.rand vs'
  kinds : List.Forall₂ Val.Alike vs vs'

variable {u : List (Com G)} {gen : G} {c c' d d' : Commit F G} {vs vs' ws ws' : List (Val F G)}

theorem allOpen_lengths {cs : List (Com G)} {rs : List (List F)} (h : AllOpen u gen cs rs vs) :
    cs.length = vs.length ∧ rs.length = vs.length := by
  induction vs generalizing cs rs with
  | nil => cases cs <;> cases rs <;> simp [AllOpen] at h ⊢
  | cons v vs ih =>
    cases cs with
    | nil => cases rs <;> simp [AllOpen] at h
    | cons c cs => cases rs with
      | nil => simp [AllOpen] at h
      | cons r rs => simpa using ih h.2

theorem allOpen_append {cs ds : List (Com G)} {rs ss : List (List F)} (h : AllOpen u gen cs rs vs) (h' : AllOpen u gen ds ss ws) :
    AllOpen u gen (cs ++ ds) (rs ++ ss) (vs ++ ws) := by
  induction vs generalizing cs rs with
  | nil => cases cs <;> cases rs <;> simp [AllOpen] at h ⊢; exact h'
  | cons v vs ih =>
    cases cs with
    | nil => cases rs <;> simp [AllOpen] at h
    | cons c cs => cases rs with
      | nil => simp [AllOpen] at h
      | cons r rs => exact ⟨h.1, ih h.2⟩

theorem allOpen_rows {cs : List (Com G)} {rs : List (List F)} (h : AllOpen u gen cs rs vs) : ∀ r ∈ rs, r.length ≤ 2 := by
  induction vs generalizing cs rs with
  | nil => cases cs <;> cases rs <;> simp [AllOpen] at h ⊢
  | cons v vs ih =>
    cases cs with
    | nil => cases rs <;> simp [AllOpen] at h
    | cons c cs => cases rs with
      | nil => simp [AllOpen] at h
      | cons r rs =>
        intro r' hr'
        rcases List.mem_cons.mp hr' with rfl | hr'
        · exact h.1.row.2.2
        · exact ih h.2 r' hr'

theorem _root_.GS.AllOpen.fits (h : AllOpen u gen c.coms c.rand vs) (hf : Fits64 vs) : c.Fits := by
  obtain ⟨h1, h2⟩ := allOpen_lengths h
  refine ⟨by rw [Fits64, h1]; exact hf, by rw [Fits64, h2]; exact hf, fun r hr => ?_⟩
  have := allOpen_rows h r hr
  unfold Fits64
  omega

theorem SameSide.nil : SameSide (F := F) u gen ⟨[], []⟩ ⟨[], []⟩ [] [] := ⟨rfl, trivial, trivial, .nil⟩

theorem SameSide.append (h : SameSide u gen c c' vs vs') (h' : SameSide u gen d d' ws ws') :
    SameSide u gen ⟨c.coms ++ d.coms, c.rand ++ d.rand⟩ ⟨c'.coms ++ d'.coms, c'.rand ++ d'.rand⟩ (vs ++ ws) (vs' ++ ws') :=
  ⟨by simp only [h.coms, h'.coms], allOpen_append h.opens h'.opens, allOpen_append h.opens' h'.opens',
    List.rel_append h.kinds h'.kinds⟩

theorem SameSide.run (h : SameSide u gen c c' vs vs') (h' : SameSide u gen d d' ws ws') :
    Commit.appendU.run (c, d) = (.ok (), (⟨c.coms ++ d.coms, c.rand ++ d.rand⟩, ⟨[], []⟩)) ∧
    Commit.appendU.run (c', d') = (.ok (), (⟨c'.coms ++ d'.coms, c'.rand ++ d'.rand⟩, ⟨[], []⟩)) := by
  have h1 := allOpen_lengths h.opens
  have h2 := allOpen_lengths h.opens'
  have h3 := allOpen_lengths h'.opens
  have h4 := allOpen_lengths h'.opens'
  exact ⟨append_run _ _ (h1.1.trans h1.2.symm) (h3.1.trans h3.2.symm), append_run _ _ (h2.1.trans h2.2.symm) (h4.1.trans h4.2.symm)⟩

theorem Batch.kinds {b b' : Batch F G} (h : b.Alike b') : List.Forall₂ Val.Alike b.vals b'.vals := by
  cases b with
  | group xs => cases b' with
    | scalar => exact h.elim
    | group xs' =>
      rw [Batch.vals, Batch.vals, List.forall₂_map_left_iff, List.forall₂_map_right_iff]
      exact List.forall₂_iff_get.mpr ⟨Eq.symm h, fun _ _ _ => trivial⟩
  | scalar xs => cases b' with
    | group => exact h.elim
    | scalar xs' =>
      rw [Batch.vals, Batch.vals, List.forall₂_map_left_iff, List.forall₂_map_right_iff]
      exact List.forall₂_iff_get.mpr ⟨Eq.symm h, fun _ _ _ => trivial⟩

theorem Batch.length_vals {b b' : Batch F G} (h : b.Alike b') : b'.vals.length = b.vals.length := (Batch.kinds h).length_eq.symm

theorem Batch.vals_nil {b b' : Batch F G} (h : b.Alike b') : b.vals = [] ↔ b'.vals = [] := by
  rw [← List.length_eq_zero_iff, ← Batch.length_vals h, List.length_eq_zero_iff]

theorem Batch.draws_eq {b b' : Batch F G} (h : b.Alike b') : b.draws = b'.draws := by
  cases b <;> cases b' <;> first | exact h.elim | (simp only [Batch.draws]; rw [show _ = _ from h])

variable {a t : F} {u0 u1 : Com G}

/-- One commitment has one row of randomness for a value. -/
theorem itemOpens_unique (k : HidingKey gen a t u0 u1) {c : Com G} {r r' : List F} {v : Val F G}
    (h : ItemOpens [u0, u1] gen c r v) (h' : ItemOpens [u0, u1] gen c r' v) : r = r' := by
  cases v with
  | group x =>
    obtain ⟨_, _, _, hu, R, hR, h1, h2⟩ := h
    cases hu
    obtain ⟨_, _, _, hu, R', hR', h1', h2'⟩ := h'
    cases hu
    obtain ⟨p, rfl⟩ := List.length_eq_one_iff.mp hR
    obtain ⟨p', rfl⟩ := List.length_eq_one_iff.mp hR'
    simp only [List.map_cons, List.map_nil, List.cons.injEq, and_true, List.zipWith_cons_cons, List.zipWith_nil_left] at h1 h2 h1' h2'
    subst h1 h1'
    have := h2.symm.trans h2'
    have := k.indep2.inj (r := ![p.1, p.2]) (r' := ![p'.1, p'.2]) (by
      simp only [groupCom] at this
      simp only [Fin.sum_univ_two, Matrix.cons_val_zero, Matrix.cons_val_one]
      rw [add_assoc, add_assoc] at this
      exact add_left_cancel this)
    have e0 := congrFun this 0
    have e1 := congrFun this 1
    simp at e0 e1
    rw [e0, e1]
  | scalar x =>
    obtain ⟨_, _, _, hu, R, hR, h1, h2⟩ := h
    cases hu
    obtain ⟨_, _, _, hu, R', hR', h1', h2'⟩ := h'
    cases hu
    obtain ⟨p, rfl⟩ := List.length_eq_one_iff.mp hR
    obtain ⟨p', rfl⟩ := List.length_eq_one_iff.mp hR'
    simp only [List.map_cons, List.map_nil, List.cons.injEq, and_true, List.zipWith_cons_cons, List.zipWith_nil_left] at h1 h2 h1' h2'
    subst h1 h1'
    have := h2.symm.trans h2'
    have := k.indep1.inj (r := ![p]) (r' := ![p']) (by
      simp only [scalarCom] at this
      simp only [Fin.sum_univ_one, Matrix.cons_val_zero]
      exact add_left_cancel this)
    have e0 := congrFun this 0
    simp at e0
    rw [e0]

theorem allOpen_row_unique (k : HidingKey gen a t u0 u1) {cs : List (Com G)} {rs rs' : List (List F)}
    (h : AllOpen [u0, u1] gen cs rs vs) (h' : AllOpen [u0, u1] gen cs rs' vs') (i : Nat) (hi : vs[i]? = vs'[i]?) : rs[i]? = rs'[i]? := by
  induction vs generalizing cs rs rs' vs' i with
  | nil =>
    cases cs <;> cases rs <;> simp [AllOpen] at h
    cases rs' <;> cases vs' <;> simp [AllOpen] at h'
    rfl
  | cons v vs ih =>
    cases cs with
    | nil => cases rs <;> simp [AllOpen] at h
    | cons c cs => cases rs with
      | nil => simp [AllOpen] at h
      | cons r rs => cases rs' with
        | nil => cases vs' <;> simp [AllOpen] at h'
        | cons r' rs' => cases vs' with
          | nil => simp [AllOpen] at h'
          | cons v' vs' =>
            cases i with
            | zero =>
              simp only [List.getElem?_cons_zero, Option.some.injEq] at hi ⊢
              subst hi
              exact itemOpens_unique k h.1 h'.1
            | succ i =>
              simp only [List.getElem?_cons_succ] at hi ⊢
              exact ih h.2 h'.2 i hi

end side

variable {F G1 G2 GT : Type} [Field F] [AddCommGroup G1] [Module F G1] [AddCommGroup G2] [Module F G2]
  [AddCommGroup GT] [Module F GT]
variable {e : G1 →ₗ[F] G2 →ₗ[F] GT} {crs : CRS G1 G2 GT} {a1 a2 t1 t2 : F} {u0 u1 : Com G1} {v0 v1 : Com G2}

/-! ### Coupling of the calls that draw -/

theorem batchL_coupled (hu : crs.u = [u0, u1]) (ku : HidingKey crs.g1_gen a1 t1 u0 u1) {b b' : Batch F G1} (h : b.Alike b')
    (hb : b.vals ≠ []) :
    Coupled (F := F) b.draws (b.commitL crs).forget (b'.commitL crs).forget
      fun c c' => SameSide crs.u crs.g1_gen c c' b.vals b'.vals := by
  have hk := Batch.kinds h
  cases b with
  | group xs => cases b' with
    | scalar => exact h.elim
    | group xs' =>
      have h1 := coupled_group (G := G1) ku (batch := fun xs rng => batchCommitG1 xs crs rng)
        (fun hm x R rest => batchCommitG1_draws hm x hu (draws_tape' (by rw [flatten_matOf_length]; omega) rest)) xs xs' h
      rw [← hu] at h1
      have hx : xs ≠ [] := by simpa [Batch.vals] using hb
      have hx' : xs' ≠ [] := List.length_pos_iff.mp (by rw [show xs'.length = xs.length from h]; exact List.length_pos_iff.mpr hx)
      refine h1.congr rfl (funext fun s => ?_) (funext fun s => ?_) fun c c' hc => ⟨hc.1, allOpen_group hc.2.1, allOpen_group hc.2.2, hk⟩
      · rw [Batch.commitL, batchCommitG1_forget]
        cases xs with
        | nil => exact absurd rfl hx
        | cons => rfl
      · rw [Batch.commitL, batchCommitG1_forget]
        cases xs' with
        | nil => exact absurd rfl hx'
        | cons => rfl
  | scalar xs => cases b' with
    | group => exact h.elim
    | scalar xs' =>
      have h1 := coupled_scalar (G := G1) ku (batch := fun xs rng => batchCommitScalarToB1 xs crs rng)
        (fun hm x R rest => batchCommitB1_draws hm x hu (draws_tape' (by rw [flatten_matOf_length]; omega) rest)) xs xs' h
      rw [← hu] at h1
      have hx : xs ≠ [] := by simpa [Batch.vals] using hb
      have hx' : xs' ≠ [] := List.length_pos_iff.mp (by rw [show xs'.length = xs.length from h]; exact List.length_pos_iff.mpr hx)
      refine h1.congr rfl (funext fun s => ?_) (funext fun s => ?_) fun c c' hc => ⟨hc.1, allOpen_scalar hc.2.1, allOpen_scalar hc.2.2, hk⟩
      · rw [Batch.commitL, batchCommitScalarToB1_forget]
        cases xs with
        | nil => exact absurd rfl hx
        | cons => rfl
      · rw [Batch.commitL, batchCommitScalarToB1_forget]
        cases xs' with
        | nil => exact absurd rfl hx'
        | cons => rfl

theorem batchR_coupled (hv : crs.v = [v0, v1]) (kv : HidingKey crs.g2_gen a2 t2 v0 v1) {b b' : Batch F G2} (h : b.Alike b')
    (hb : b.vals ≠ []) :
    Coupled (F := F) b.draws (b.commitR crs).forget (b'.commitR crs).forget
      fun c c' => SameSide crs.v crs.g2_gen c c' b.vals b'.vals := by
  have hk := Batch.kinds h
  cases b with
  | group xs => cases b' with
    | scalar => exact h.elim
    | group xs' =>
      have h1 := coupled_group (G := G2) kv (batch := fun xs rng => batchCommitG2 xs crs rng)
        (fun hm x R rest => batchCommitG2_draws hm x hv (draws_tape' (by rw [flatten_matOf_length]; omega) rest)) xs xs' h
      rw [← hv] at h1
      have hx : xs ≠ [] := by simpa [Batch.vals] using hb
      have hx' : xs' ≠ [] := List.length_pos_iff.mp (by rw [show xs'.length = xs.length from h]; exact List.length_pos_iff.mpr hx)
      refine h1.congr rfl (funext fun s => ?_) (funext fun s => ?_) fun c c' hc => ⟨hc.1, allOpen_group hc.2.1, allOpen_group hc.2.2, hk⟩
      · rw [Batch.commitR, batchCommitG2_forget]
        cases xs with
        | nil => exact absurd rfl hx
        | cons => rfl
      · rw [Batch.commitR, batchCommitG2_forget]
        cases xs' with
        | nil => exact absurd rfl hx'
        | cons => rfl
  | scalar xs => cases b' with
    | group => exact h.elim
    | scalar xs' =>
      have h1 := coupled_scalar (G := G2) kv (batch := fun xs rng => batchCommitScalarToB2 xs crs rng)
        (fun hm x R rest => batchCommitB2_draws hm x hv (draws_tape' (by rw [flatten_matOf_length]; omega) rest)) xs xs' h
      rw [← hv] at h1
      have hx : xs ≠ [] := by simpa [Batch.vals] using hb
      have hx' : xs' ≠ [] := List.length_pos_iff.mp (by rw [show xs'.length = xs.length from h]; exact List.length_pos_iff.mpr hx)
      refine h1.congr rfl (funext fun s => ?_) (funext fun s => ?_) fun c c' hc => ⟨hc.1, allOpen_scalar hc.2.1, allOpen_scalar hc.2.2, hk⟩
      · rw [Batch.commitR, batchCommitScalarToB2_forget]
        cases xs with
        | nil => exact absurd rfl hx
        | cons => rfl
      · rw [Batch.commitR, batchCommitScalarToB2_forget]
        cases xs' with
        | nil => exact absurd rfl hx'
        | cons => rfl

/-- One value is a batch of one value. -/
def single {G : Type} : Val F G → Batch F G
  | .group x => .group [x]
  | .scalar x => .scalar [x]

theorem single_vals {G : Type} (v : Val F G) : (single v).vals = [v] := by cases v <;> rfl

theorem single_alike {G : Type} {v v' : Val F G} (h : v.Alike v') : (single v).Alike (single v') := by
  cases v <;> cases v' <;> first | exact h.elim | rfl

theorem commitL_single (hu : crs.u.length = 2) (v : Val F G1) :
    (v.commitL crs).forget (ρ := List F) = ((single v).commitL crs).forget := by
  funext s
  cases v with
  | group x =>
    show (commitG1U x crs).forget s = (batchCommitG1U [x] crs).forget s
    rw [commitG1_forget, batchCommitG1_forget, C18_batch_G1 crs hu]
    exact (bind_pure _).symm
  | scalar x =>
    show (commitScalarToB1U x crs).forget s = (batchCommitScalarToB1U [x] crs).forget s
    rw [commitScalarToB1_forget, batchCommitScalarToB1_forget, C18_batch_scalar_B1 crs hu.ge]
    exact (bind_pure _).symm

theorem commitR_single (hv : crs.v.length = 2) (v : Val F G2) :
    (v.commitR crs).forget (ρ := List F) = ((single v).commitR crs).forget := by
  funext s
  cases v with
  | group x =>
    show (commitG2U x crs).forget s = (batchCommitG2U [x] crs).forget s
    rw [commitG2_forget, batchCommitG2_forget, C18_batch_G2 crs hv]
    exact (bind_pure _).symm
  | scalar x =>
    show (commitScalarToB2U x crs).forget s = (batchCommitScalarToB2U [x] crs).forget s
    rw [commitScalarToB2_forget, batchCommitScalarToB2_forget, C18_batch_scalar_B2 crs hv.ge]
    exact (bind_pure _).symm

theorem _root_.GS.Coupled.keep {N : Nat} {α α' : Type} {run : List F → Res (α × List F)} {run' : List F → Res (α' × List F)}
    {R : α → α' → Prop} (h : Coupled N run run' R) {P : α → Prop} {P' : α' → Prop} (hP : ∀ s a r, run s = .ok (a, r) → P a)
    (hP' : ∀ s a r, run' s = .ok (a, r) → P' a) : Coupled N run run' fun a a' => R a a' ∧ P a ∧ P' a' := by
  obtain ⟨φ, h⟩ := h
  refine ⟨φ, fun t => ?_⟩
  obtain ⟨a, a', hR, hr⟩ := h t
  exact ⟨a, a', ⟨hR, hP _ _ _ (hr []).1, hP' _ _ _ (hr []).2⟩, hr⟩

/-- Proofs fit into memory. -/
theorem prove_fits (c : Claim F G1 G2 GT) (sch : Nat → Scheduler) (cx : Commit F G1) (cy : Commit F G2) (s : List F)
    (pf : EquProof F G1 G2) (r : List F) (h : (c.prove sch cx cy crs).forget s = .ok (pf, r)) : pf.Fits := by
  cases c with
  | ppe q x y =>
    rw [Claim.prove, PPE.prove_forget, PPE.prove_eq] at h
    obtain ⟨-, h1, h2, h3⟩ := proveCore_rand h
    exact ⟨by unfold Fits64; omega, by unfold Fits64; omega, h1 ▸ fitsMat_small _ (by simp) (by simp)⟩
  | msmeg1 q x y =>
    rw [Claim.prove, MSMEG1.prove_forget, MSMEG1.prove_eq] at h
    obtain ⟨-, h1, h2, h3⟩ := proveCore_rand h
    exact ⟨by unfold Fits64; omega, by unfold Fits64; omega, h1 ▸ fitsMat_small _ (by simp) (by simp)⟩
  | msmeg2 q x y =>
    rw [Claim.prove, MSMEG2.prove_forget, MSMEG2.prove_eq] at h
    obtain ⟨-, h1, h2, h3⟩ := proveCore_rand h
    exact ⟨by unfold Fits64; omega, by unfold Fits64; omega, h1 ▸ fitsMat_small _ (by simp) (by simp)⟩
  | quad q x y =>
    rw [Claim.prove, QuadEqu.prove_forget, QuadEqu.prove_eq] at h
    obtain ⟨-, h1, h2, h3⟩ := proveCore_rand h
    exact ⟨by unfold Fits64; omega, by unfold Fits64; omega, h1 ▸ fitsMat_small _ (by simp) (by simp)⟩

/-- Proofs with the same public part, that fit into memory. -/
def SameProof (pf pf' : EquProof F G1 G2) : Prop := SamePub pf pf' ∧ pf.Fits ∧ pf'.Fits

theorem prove_coupled' (he : PrimeGroups e) (hu : crs.u = [u0, u1]) (hv : crs.v = [v0, v1])
    (ku : HidingKey crs.g1_gen a1 t1 u0 u1) (kv : HidingKey crs.g2_gen a2 t2 v0 v1) {c c' : Claim F G1 G2 GT} (ha : c.Alike c')
    (hw : c.WellFormed) (h : c.Holds e) (h' : c'.Holds e) {cx cx' : Commit F G1} {cy cy' : Commit F G2}
    (hx : SameSide crs.u crs.g1_gen cx cx' c.xs.vals c'.xs.vals) (hy : SameSide crs.v crs.g2_gen cy cy' c.ys.vals c'.ys.vals)
    (sch sch' : Nat → Scheduler) :
    Coupled (F := F) c.equ.draws (c.prove sch cx cy crs).forget (c'.prove sch' cx' cy' crs).forget SamePub := by
  obtain ⟨he', hax, hay⟩ := ha
  obtain ⟨w1, w2, w3⟩ := hw
  cases c <;> cases c' <;> simp only [Claim.equ, AnyEqu.ppe.injEq, AnyEqu.msmeg1.injEq, AnyEqu.msmeg2.injEq, AnyEqu.quad.injEq,
    reduceCtorEq] at he' <;> subst he' <;>
    simp only [Claim.xs, Claim.ys, Batch.vals, Claim.equ, AnyEqu.Dims, List.length_map, ne_eq, List.map_eq_nil_iff] at hax hay hx hy w1 w2 w3
  · refine (PPE.prove_coupled he hu hv ku kv w1 w2 w3 hax hay h h' hx.coms hy.coms (opens_of_allOpen_group hu hx.opens)
      (opens_of_allOpen_group hv hy.opens) (opens_of_allOpen_group hu hx.opens') (opens_of_allOpen_group hv hy.opens') sch sch').congr rfl
      (funext fun s => ?_) (funext fun s => ?_) fun _ _ h => h <;> rw [Claim.prove, PPE.prove_forget]
  · refine (MSMEG1.prove_coupled he hu hv ku kv w1 w2 w3 hax hay h h' hx.coms hy.coms (opens_of_allOpen_group hu hx.opens)
      (opens_of_allOpen_scalar hv hy.opens) (opens_of_allOpen_group hu hx.opens') (opens_of_allOpen_scalar hv hy.opens') sch sch').congr rfl
      (funext fun s => ?_) (funext fun s => ?_) fun _ _ h => h <;> rw [Claim.prove, MSMEG1.prove_forget]
  · refine (MSMEG2.prove_coupled he hu hv ku kv w1 w2 w3 hax hay h h' hx.coms hy.coms (opens_of_allOpen_scalar hu hx.opens)
      (opens_of_allOpen_group hv hy.opens) (opens_of_allOpen_scalar hu hx.opens') (opens_of_allOpen_group hv hy.opens') sch sch').congr rfl
      (funext fun s => ?_) (funext fun s => ?_) fun _ _ h => h <;> rw [Claim.prove, MSMEG2.prove_forget]
  · refine (QuadEqu.prove_coupled he hu hv ku kv w1 w2 w3 hax hay h h' hx.coms hy.coms (opens_of_allOpen_scalar hu hx.opens)
      (opens_of_allOpen_scalar hv hy.opens) (opens_of_allOpen_scalar hu hx.opens') (opens_of_allOpen_scalar hv hy.opens') sch sch').congr rfl
      (funext fun s => ?_) (funext fun s => ?_) fun _ _ h => h <;> rw [Claim.prove, QuadEqu.prove_forget]

theorem prove_coupled (he : PrimeGroups e) (hu : crs.u = [u0, u1]) (hv : crs.v = [v0, v1])
    (ku : HidingKey crs.g1_gen a1 t1 u0 u1) (kv : HidingKey crs.g2_gen a2 t2 v0 v1) {c c' : Claim F G1 G2 GT} (ha : c.Alike c')
    (hw : c.WellFormed) (h : c.Holds e) (h' : c'.Holds e) {cx cx' : Commit F G1} {cy cy' : Commit F G2}
    (hx : SameSide crs.u crs.g1_gen cx cx' c.xs.vals c'.xs.vals) (hy : SameSide crs.v crs.g2_gen cy cy' c.ys.vals c'.ys.vals)
    (sch sch' : Nat → Scheduler) :
    Coupled (F := F) c.equ.draws (c.prove sch cx cy crs).forget (c'.prove sch' cx' cy' crs).forget SameProof :=
  (prove_coupled' he hu hv ku kv ha hw h h' hx hy sch sch').keep (prove_fits _ _ _ _) (prove_fits _ _ _ _)

theorem cap_forget (c : Claim F G1 G2 GT) (sch : Nat → Scheduler) (s : List F) :
    (c.commitAndProve sch crs).forget s = (c.xs.commitL crs).forget s >>= fun r => (c.ys.commitR crs).forget r.2 >>= fun r' =>
      (c.prove sch r.1 r'.1 crs).forget r'.2 >>= fun r'' => .ok (⟨r.1, r'.1, [r''.1]⟩, r''.2) := by
  cases c <;>
  · simp only [Claim.commitAndProve, PPE.commitAndProveU, MSMEG1.commitAndProveU, MSMEG2.commitAndProveU, QuadEqu.commitAndProveU,
      Unw.forget_bind]
    rfl

/-- Published parts of `commit_and_prove`. -/
structure SameCap (crs : CRS G1 G2 GT) (c c' : Claim F G1 G2 GT) (cp cp' : CProof F G1 G2) : Prop where
  x : SameSide crs.u crs.g1_gen cp.xcoms cp'.xcoms c.xs.vals c'.xs.vals
  y : SameSide crs.v crs.g2_gen cp.ycoms cp'.ycoms c.ys.vals c'.ys.vals
  p : cp.equ_proofs.map (fun pf => (pf.pi, pf.theta, pf.equ_type)) = cp'.equ_proofs.map fun pf => (pf.pi, pf.theta, pf.equ_type)
  fits : ∀ pf ∈ cp.equ_proofs, pf.Fits
  fits' : ∀ pf ∈ cp'.equ_proofs, pf.Fits

theorem cap_coupled (he : PrimeGroups e) (hu : crs.u = [u0, u1]) (hv : crs.v = [v0, v1])
    (ku : HidingKey crs.g1_gen a1 t1 u0 u1) (kv : HidingKey crs.g2_gen a2 t2 v0 v1) {c c' : Claim F G1 G2 GT} (ha : c.Alike c')
    (hw : c.WellFormed) (h : c.Holds e) (h' : c'.Holds e) (sch sch' : Nat → Scheduler) :
    Coupled (F := F) (c.xs.draws + (c.ys.draws + c.equ.draws)) (c.commitAndProve sch crs).forget (c'.commitAndProve sch' crs).forget
      (SameCap crs c c') := by
  refine ((batchL_coupled hu ku ha.2.1 hw.1).bind fun cx cx' hx => (batchR_coupled hv kv ha.2.2 hw.2.1).bind fun cy cy' hy =>
    (prove_coupled he hu hv ku kv ha hw h h' hx hy sch sch').map (f := fun pf => CProof.mk cx cy [pf])
      (f' := fun pf => CProof.mk cx' cy' [pf]) (Rel' := SameCap crs c c') fun pf pf' hp =>
        ⟨hx, hy, congrArg (fun p => [p]) hp.1, fun p h => List.mem_singleton.mp h ▸ hp.2.1, fun p h => List.mem_singleton.mp h ▸ hp.2.2⟩).congr rfl
    (funext fun s => (cap_forget c sch s).symm) (funext fun s => (cap_forget c' sch' s).symm) fun _ _ h => h

/-! ### Calls that panic -/

section panics
variable {ρ : Type} [Rng ρ F G1 G2]

theorem forall_items {G : Type} {items : List (Item F G)} {P : Val F G → Prop} :
    (∀ it ∈ items, P it.val) ↔ ∀ v ∈ items.map (·.val), P v := by
  simp

theorem rect_group_of_allOpen {G : Type} [AddCommGroup G] [Module F G] {u : List (Com G)} {gen : G} {c : Commit F G}
    {items : List (Item F G)} (h : AllOpen u gen c.coms c.rand (items.map (·.val))) (m : Nat) :
    Rect m 2 c.rand ↔ items.length = m ∧ ∀ it ∈ items, ∃ x, it.val = .group x := by
  obtain ⟨T, -, hs⟩ := side_new (fun _ => (0, [])) 0 _ _ _ h
  rw [hs.rect_group, numbered_length, List.length_map, forall_items (P := fun v => ∃ x, v = .group x), numbered_vals,
    ← forall_items (P := fun v => ∃ x, v = .group x)]

theorem rect_scalar_of_allOpen {G : Type} [AddCommGroup G] [Module F G] {u : List (Com G)} {gen : G} {c : Commit F G}
    {items : List (Item F G)} (h : AllOpen u gen c.coms c.rand (items.map (·.val))) (m : Nat) :
    Rect m 1 c.rand ↔ items.length = m ∧ ∀ it ∈ items, ∃ x, it.val = .scalar x := by
  obtain ⟨T, -, hs⟩ := side_new (fun _ => (0, [])) 0 _ _ _ h
  rw [hs.rect_scalar, numbered_length, List.length_map, forall_items (P := fun v => ∃ x, v = .scalar x), numbered_vals,
    ← forall_items (P := fun v => ∃ x, v = .scalar x)]

theorem prove_panics {xs : List (Item F G1)} {ys : List (Item F G2)} {cx : Commit F G1} {cy : Commit F G2}
    (hx : AllOpen crs.u crs.g1_gen cx.coms cx.rand (xs.map (·.val))) (hy : AllOpen crs.v crs.g2_gen cy.coms cy.rand (ys.map (·.val)))
    (c : Claim F G1 G2 GT) (sch : Nat → Scheduler) (s : ρ) (hf : ¬ c.Fits xs ys) : ∃ p s', (c.prove sch cx cy crs).run s = (.error p, s') := by
  cases c with
  | ppe q x y =>
    refine Unw.run_of_panics ((PPE.prove_forget sch q x y cx cy crs s) ▸ (C36_ppe sch crs s cx cy q x y).2.mpr fun h => hf ?_)
    rw [rect_group_of_allOpen hx, rect_group_of_allOpen hy] at h
    simp only [Claim.Fits, Claim.WellFormed, Claim.xs, Claim.ys, Claim.equ, Batch.vals, AnyEqu.Dims, Batch.SameKind, List.length_map,
      ne_eq, List.map_eq_nil_iff]
    tauto
  | msmeg1 q x y =>
    refine Unw.run_of_panics ((MSMEG1.prove_forget sch q x y cx cy crs s) ▸ (C36_msmeg1 sch crs s cx cy q x y).2.mpr fun h => hf ?_)
    rw [rect_group_of_allOpen hx, rect_scalar_of_allOpen hy] at h
    simp only [Claim.Fits, Claim.WellFormed, Claim.xs, Claim.ys, Claim.equ, Batch.vals, AnyEqu.Dims, Batch.SameKind, List.length_map,
      ne_eq, List.map_eq_nil_iff]
    tauto
  | msmeg2 q x y =>
    refine Unw.run_of_panics ((MSMEG2.prove_forget sch q x y cx cy crs s) ▸ (C36_msmeg2 sch crs s cx cy q x y).2.mpr fun h => hf ?_)
    rw [rect_scalar_of_allOpen hx, rect_group_of_allOpen hy] at h
    simp only [Claim.Fits, Claim.WellFormed, Claim.xs, Claim.ys, Claim.equ, Batch.vals, AnyEqu.Dims, Batch.SameKind, List.length_map,
      ne_eq, List.map_eq_nil_iff]
    tauto
  | quad q x y =>
    refine Unw.run_of_panics ((QuadEqu.prove_forget sch q x y cx cy crs s) ▸ (C36_quad sch crs s cx cy q x y).2.mpr fun h => hf ?_)
    rw [rect_scalar_of_allOpen hx, rect_scalar_of_allOpen hy] at h
    simp only [Claim.Fits, Claim.WellFormed, Claim.xs, Claim.ys, Claim.equ, Batch.vals, AnyEqu.Dims, Batch.SameKind, List.length_map,
      ne_eq, List.map_eq_nil_iff]
    tauto

theorem cap_panics (c : Claim F G1 G2 GT) (sch : Nat → Scheduler) (s : ρ) (hw : ¬ c.WellFormed) :
    ∃ p s', (c.commitAndProve sch crs).run s = (.error p, s') := by
  apply Unw.run_of_panics
  obtain ⟨d1, d2, d3, d4⟩ := C36_commit_and_prove (F := F) (GT := GT) sch crs s
  cases c with
  | ppe q x y =>
    rw [Claim.commitAndProve, PPE.cap_forget, panics_iff_not_ok, d1]
    rintro ⟨k1, k2, k3, -⟩
    exact hw ⟨by simpa [Claim.xs, Batch.vals] using k1, by simpa [Claim.ys, Batch.vals] using k2,
      by simpa [Claim.xs, Claim.ys, Batch.vals, Claim.equ, AnyEqu.Dims] using k3⟩
  | msmeg1 q x y =>
    rw [Claim.commitAndProve, MSMEG1.cap_forget, panics_iff_not_ok, d2]
    rintro ⟨k1, k2, k3, -⟩
    exact hw ⟨by simpa [Claim.xs, Batch.vals] using k1, by simpa [Claim.ys, Batch.vals] using k2,
      by simpa [Claim.xs, Claim.ys, Batch.vals, Claim.equ, AnyEqu.Dims] using k3⟩
  | msmeg2 q x y =>
    rw [Claim.commitAndProve, MSMEG2.cap_forget, panics_iff_not_ok, d3]
    rintro ⟨k1, k2, k3, -⟩
    exact hw ⟨by simpa [Claim.xs, Batch.vals] using k1, by simpa [Claim.ys, Batch.vals] using k2,
      by simpa [Claim.xs, Claim.ys, Batch.vals, Claim.equ, AnyEqu.Dims] using k3⟩
  | quad q x y =>
    rw [Claim.commitAndProve, QuadEqu.cap_forget, panics_iff_not_ok, d4]
    rintro ⟨k1, k2, k3, -⟩
    exact hw ⟨by simpa [Claim.xs, Batch.vals] using k1, by simpa [Claim.ys, Batch.vals] using k2,
      by simpa [Claim.xs, Claim.ys, Batch.vals, Claim.equ, AnyEqu.Dims] using k3⟩

end panics

/-- A claim fits, or not, in both worlds. -/
theorem wellFormed_iff {c c' : Claim F G1 G2 GT} (ha : c.Alike c') : c.WellFormed ↔ c'.WellFormed := by
  simp only [Claim.WellFormed, ne_eq, Batch.vals_nil ha.2.1, Batch.vals_nil ha.2.2, ha.1, Batch.length_vals ha.2.1, Batch.length_vals ha.2.2]

theorem alike_sameKind {G : Type} {b b' : Batch F G} (hb : b.Alike b') {v v' : Val F G} (hv : v.Alike v') :
    b.SameKind v ↔ b'.SameKind v' := by
  cases b <;> cases b' <;> first | exact hb.elim | skip
  all_goals cases v <;> cases v' <;> first | exact hv.elim | simp [Batch.SameKind]

theorem sameKinds_iff {G : Type} [AddCommGroup G] [Module F G] {b b' : Batch F G} (hb : b.Alike b') {xs xs' : List (Item F G)}
    (h : List.Forall₂ Val.Alike (xs.map (·.val)) (xs'.map (·.val))) :
    (xs.length = b.vals.length ∧ ∀ it ∈ xs, b.SameKind it.val) ↔ xs'.length = b'.vals.length ∧ ∀ it ∈ xs', b'.SameKind it.val := by
  have hl := h.length_eq
  simp only [List.length_map] at hl
  rw [hl, Batch.length_vals hb, forall_items (P := b.SameKind), forall_items (P := b'.SameKind)]
  refine and_congr_right fun _ => ?_
  clear hl
  generalize xs.map (·.val) = vs at h
  generalize xs'.map (·.val) = vs' at h
  induction h with
  | nil => simp
  | cons h _ ih => simp only [List.mem_cons, forall_eq_or_imp, ih, alike_sameKind hb h]

theorem fits_iff {c c' : Claim F G1 G2 GT} (ha : c.Alike c') {xs xs' : List (Item F G1)} {ys ys' : List (Item F G2)}
    (hx : List.Forall₂ Val.Alike (xs.map (·.val)) (xs'.map (·.val))) (hy : List.Forall₂ Val.Alike (ys.map (·.val)) (ys'.map (·.val))) :
    c.Fits xs ys ↔ c'.Fits xs' ys' := by
  simp only [Claim.Fits]
  rw [wellFormed_iff ha, sameKinds_iff ha.2.1 hx, sameKinds_iff ha.2.2 hy]

/-! ### One call -/

section steps
variable [DecidableEq GT]

theorem runs {N : Nat} {α : Type} {x x' : Unw (List F) α} {R : α → α → Prop} (h : Coupled N x.forget x'.forget R) :
    ∃ φ : (Fin N → F) ≃ (Fin N → F), ∀ t, ∃ a a', R a a' ∧ x.run (List.ofFn t) = (.ok a, []) ∧ x'.run (List.ofFn (φ t)) = (.ok a', []) := by
  obtain ⟨φ, h⟩ := h
  refine ⟨φ, fun t => ?_⟩
  obtain ⟨a, a', hR, hr⟩ := h t
  obtain ⟨h1, h2⟩ := hr []
  rw [List.append_nil] at h1 h2
  exact ⟨a, a', hR, Unw.forget_ok.mp h1, Unw.forget_ok.mp h2⟩

/-- What is known about the proofs in a variable. -/
def Kept (o : Origin F G1 G2 GT) (pfs : List (EquProof F G1 G2)) : Prop :=
  match o with
  | .received p => pfs = p
  | .made _ _ _ => ∀ pf ∈ pfs, pf.Fits

theorem Kept.fits {o : Origin F G1 G2 GT} {pfs : List (EquProof F G1 G2)} (h : Kept o pfs)
    (hf : ∀ p, o = .received p → ∀ pf ∈ p, pf.Fits) : ∀ pf ∈ pfs, pf.Fits := by
  cases o with
  | received p =>
    obtain rfl : pfs = p := h
    exact hf _ rfl
  | made c xs ys => exact h

/-- The stores of the two worlds. -/
structure Rel (crs : CRS G1 G2 GT) (L L' : Ledger F G1 G2 GT) (s s' : Store (List F) F G1 G2) : Prop where
  left : ∀ i, SameSide crs.u crs.g1_gen (s.left i) (s'.left i) ((L.left i).map (·.val)) ((L'.left i).map (·.val))
  right : ∀ i, SameSide crs.v crs.g2_gen (s.right i) (s'.right i) ((L.right i).map (·.val)) ((L'.right i).map (·.val))
  proofs : ∀ k, ((s.proofs k).map fun pf => (pf.pi, pf.theta, pf.equ_type)) = (s'.proofs k).map fun pf => (pf.pi, pf.theta, pf.equ_type)
  kept : ∀ k, Kept (L.proofs k) (s.proofs k)
  kept' : ∀ k, Kept (L'.proofs k) (s'.proofs k)

theorem Rel.init : Rel crs (F := F) Ledger.init Ledger.init (Store.init []) (Store.init []) :=
  ⟨fun _ => .nil, fun _ => .nil, fun _ => rfl, fun _ => rfl, fun _ => rfl⟩

variable {L L' : Ledger F G1 G2 GT} {s s' : Store (List F) F G1 G2}

theorem Rel.pub (h : Rel crs L L' s s') : s.pub = s'.pub := by
  simp only [Store.pub, Public.mk.injEq]
  exact ⟨funext fun i => (h.left i).coms, funext fun i => (h.right i).coms, funext h.proofs⟩

theorem Rel.rng (h : Rel crs L L' s s') (r r' : List F) : Rel crs L L' { s with rng := r } { s' with rng := r' } :=
  ⟨h.left, h.right, h.proofs, h.kept, h.kept'⟩

theorem forall_setAt4 {A B C D : Type} {P : A → B → C → D → Prop} {f : Nat → A} {g : Nat → B} {f' : Nat → C} {g' : Nat → D}
    (h : ∀ i, P (f i) (g i) (f' i) (g' i)) (k : Nat) {a : A} {b : B} {c : C} {d : D} (hab : P a b c d) (i : Nat) :
    P (setAt f k a i) (setAt g k b i) (setAt f' k c i) (setAt g' k d i) := by
  unfold setAt
  split
  · exact hab
  · exact h i

theorem setAt_sides {G : Type} [AddCommGroup G] [Module F G] {u : List (Com G)} {gen : G} {f f' : Nat → Commit F G}
    {g g' : Nat → List (Item F G)} (h : ∀ i, SameSide u gen (f i) (f' i) ((g i).map (·.val)) ((g' i).map (·.val))) (k : Nat)
    {c c' : Commit F G} {l l' : List (Item F G)} (hc : SameSide u gen c c' (l.map (·.val)) (l'.map (·.val))) (i : Nat) :
    SameSide u gen (setAt f k c i) (setAt f' k c' i) ((setAt g k l i).map (·.val)) ((setAt g' k l' i).map (·.val)) :=
  forall_setAt4 (P := fun c c' (l l' : List (Item F G)) => SameSide u gen c c' (l.map (·.val)) (l'.map (·.val))) h k hc i

theorem setAt_proofs {f f' : Nat → List (EquProof F G1 G2)}
    (h : ∀ k, ((f k).map fun pf => (pf.pi, pf.theta, pf.equ_type)) = (f' k).map fun pf => (pf.pi, pf.theta, pf.equ_type)) (k : Nat)
    {p p' : List (EquProof F G1 G2)}
    (hp : (p.map fun pf => (pf.pi, pf.theta, pf.equ_type)) = p'.map fun pf => (pf.pi, pf.theta, pf.equ_type)) (i : Nat) :
    ((setAt f k p i).map fun pf => (pf.pi, pf.theta, pf.equ_type)) = (setAt f' k p' i).map fun pf => (pf.pi, pf.theta, pf.equ_type) :=
  forall_setAt (P := fun p p' : List (EquProof F G1 G2) => (p.map fun pf => (pf.pi, pf.theta, pf.equ_type)) =
    p'.map fun pf => (pf.pi, pf.theta, pf.equ_type)) h k hp i

theorem check_same (h : Rel crs L L' s s') (q : AnyEqu F G1 G2 GT) (sch : Scheduler) (k i j : Nat) :
    SameOutcome (q.check e sch ⟨s.left i, s.right j, s.proofs k⟩ crs) (q.check e sch ⟨s'.left i, s'.right j, s'.proofs k⟩ crs) := by
  have := C43_randomness_ignored e sch ⟨s.left i, s.right j, s.proofs k⟩ crs ⟨s'.left i, s'.right j, s'.proofs k⟩
    (by simp only [CProof.publicPart, Prod.mk.injEq]; exact ⟨(h.left i).coms, (h.right j).coms, h.proofs k⟩)
  cases q with
  | ppe q => exact this.1 q
  | msmeg1 q => exact this.2.1 q
  | msmeg2 q => exact this.2.2.1 q
  | quad q => exact this.2.2.2 q

theorem step_coupled (he : PrimeGroups e) (hu : crs.u = [u0, u1]) (hv : crs.v = [v0, v1])
    (ku : HidingKey crs.g1_gen a1 t1 u0 u1) (kv : HidingKey crs.g2_gen a2 t2 v0 v1) {cd : Codecs F G1 G2} (hcd : cd.Lawful)
    (h : Rel crs L L' s s') {op op' : ApiCall F G1 G2 GT} (ha : Admissible e L L' op op') :
    ∃ φ : (Fin op.draws → F) ≃ (Fin op.draws → F), ∀ t,
      ((({ s with rng := List.ofFn t } : Store (List F) F G1 G2).step e crs cd op).1 =
        (({ s' with rng := List.ofFn (φ t) } : Store (List F) F G1 G2).step e crs cd op').1) ∧
      Rel crs (L.step op) (L'.step op') (({ s with rng := List.ofFn t } : Store (List F) F G1 G2).step e crs cd op).2
        (({ s' with rng := List.ofFn (φ t) } : Store (List F) F G1 G2).step e crs cd op').2 := by
  have hul : crs.u.length = 2 := by rw [hu]; rfl
  have hvl : crs.v.length = 2 := by rw [hv]; rfl
  obtain ⟨htw, hh, hh'⟩ := ha
  cases op with
  | commitL i v =>
    cases op' <;> try exact htw.elim
    rename_i i' v'
    obtain ⟨rfl, hvv⟩ := htw
    have hc := batchL_coupled (crs := crs) hu ku (single_alike hvv) (by rw [single_vals]; simp)
    rw [← commitL_single hul, ← commitL_single hul, single_vals, single_vals] at hc
    have hN : (single v).draws = (ApiCall.commitL i v : ApiCall F G1 G2 GT).draws := by cases v <;> rfl
    rw [hN] at hc
    obtain ⟨φ, hφ⟩ := runs hc
    refine ⟨φ, fun t => ?_⟩
    obtain ⟨c, c', hR, r1, r2⟩ := hφ t
    simp only [Store.step, r1, r2, Ledger.step, true_and]
    exact ⟨setAt_sides h.left i (by rwa [numbered_vals, numbered_vals]), h.right, h.proofs, h.kept, h.kept'⟩
  | commitR i v =>
    cases op' <;> try exact htw.elim
    rename_i i' v'
    obtain ⟨rfl, hvv⟩ := htw
    have hc := batchR_coupled (crs := crs) hv kv (single_alike hvv) (by rw [single_vals]; simp)
    rw [← commitR_single hvl, ← commitR_single hvl, single_vals, single_vals] at hc
    have hN : (single v).draws = (ApiCall.commitR i v : ApiCall F G1 G2 GT).draws := by cases v <;> rfl
    rw [hN] at hc
    obtain ⟨φ, hφ⟩ := runs hc
    refine ⟨φ, fun t => ?_⟩
    obtain ⟨c, c', hR, r1, r2⟩ := hφ t
    simp only [Store.step, r1, r2, Ledger.step, true_and]
    exact ⟨h.left, setAt_sides h.right i (by rwa [numbered_vals, numbered_vals]), h.proofs, h.kept, h.kept'⟩
  | batchL i b =>
    cases op' <;> try exact htw.elim
    rename_i i' b'
    obtain ⟨rfl, hbb⟩ := htw
    by_cases hb : b.vals = []
    · have hb' := (Batch.vals_nil hbb).mp hb
      refine ⟨Equiv.refl _, fun t => ?_⟩
      obtain ⟨p, r, h1⟩ := (b.commitL_ok hul (List.ofFn t)).2 hb
      obtain ⟨p', r', h1'⟩ := (b'.commitL_ok hul (List.ofFn t)).2 hb'
      simp only [Store.step, Equiv.refl_apply, h1, h1', Ledger.step, hb, hb', if_true, true_and]
      exact h.rng _ _
    · have hb' := (Batch.vals_nil hbb).not.mp hb
      obtain ⟨φ, hφ⟩ := runs (N := (ApiCall.batchL i b : ApiCall F G1 G2 GT).draws) (batchL_coupled (crs := crs) hu ku hbb hb)
      refine ⟨φ, fun t => ?_⟩
      obtain ⟨c, c', hR, r1, r2⟩ := hφ t
      simp only [Store.step, r1, r2, Ledger.step, hb, hb', if_false, true_and]
      exact ⟨setAt_sides h.left i (by rwa [numbered_vals, numbered_vals]), h.right, h.proofs, h.kept, h.kept'⟩
  | batchR i b =>
    cases op' <;> try exact htw.elim
    rename_i i' b'
    obtain ⟨rfl, hbb⟩ := htw
    by_cases hb : b.vals = []
    · have hb' := (Batch.vals_nil hbb).mp hb
      refine ⟨Equiv.refl _, fun t => ?_⟩
      obtain ⟨p, r, h1⟩ := (b.commitR_ok hvl (List.ofFn t)).2 hb
      obtain ⟨p', r', h1'⟩ := (b'.commitR_ok hvl (List.ofFn t)).2 hb'
      simp only [Store.step, Equiv.refl_apply, h1, h1', Ledger.step, hb, hb', if_true, true_and]
      exact h.rng _ _
    · have hb' := (Batch.vals_nil hbb).not.mp hb
      obtain ⟨φ, hφ⟩ := runs (N := (ApiCall.batchR i b : ApiCall F G1 G2 GT).draws) (batchR_coupled (crs := crs) hv kv hbb hb)
      refine ⟨φ, fun t => ?_⟩
      obtain ⟨c, c', hR, r1, r2⟩ := hφ t
      simp only [Store.step, r1, r2, Ledger.step, hb, hb', if_false, true_and]
      exact ⟨h.left, setAt_sides h.right i (by rwa [numbered_vals, numbered_vals]), h.proofs, h.kept, h.kept'⟩
  | appendL i j =>
    cases op' <;> try exact htw.elim
    obtain ⟨rfl, rfl⟩ := htw
    refine ⟨Equiv.refl _, fun t => ?_⟩
    by_cases hij : i = j
    · simp only [Store.step, Ledger.step, hij, if_true, true_and]
      exact h.rng _ _
    · obtain ⟨r1, r2⟩ := (h.left i).run (h.left j)
      simp only [Store.step, Ledger.step, hij, if_false, r1, r2, true_and]
      refine ⟨setAt_sides (setAt_sides h.left i ?_) j .nil, h.right, h.proofs, h.kept, h.kept'⟩
      rw [List.map_append, List.map_append]
      exact (h.left i).append (h.left j)
  | appendR i j =>
    cases op' <;> try exact htw.elim
    obtain ⟨rfl, rfl⟩ := htw
    refine ⟨Equiv.refl _, fun t => ?_⟩
    by_cases hij : i = j
    · simp only [Store.step, Ledger.step, hij, if_true, true_and]
      exact h.rng _ _
    · obtain ⟨r1, r2⟩ := (h.right i).run (h.right j)
      simp only [Store.step, Ledger.step, hij, if_false, r1, r2, true_and]
      refine ⟨h.left, setAt_sides (setAt_sides h.right i ?_) j .nil, h.proofs, h.kept, h.kept'⟩
      rw [List.map_append, List.map_append]
      exact (h.right i).append (h.right j)
  | cloneL i j =>
    cases op' <;> try exact htw.elim
    obtain ⟨rfl, rfl⟩ := htw
    exact ⟨Equiv.refl _, fun t => ⟨rfl, setAt_sides h.left i (h.left j), h.right, h.proofs, h.kept, h.kept'⟩⟩
  | cloneR i j =>
    cases op' <;> try exact htw.elim
    obtain ⟨rfl, rfl⟩ := htw
    exact ⟨Equiv.refl _, fun t => ⟨rfl, h.left, setAt_sides h.right i (h.right j), h.proofs, h.kept, h.kept'⟩⟩
  | reloadL i m v =>
    cases op' <;> try exact htw.elim
    obtain ⟨rfl, rfl, rfl⟩ := htw
    refine ⟨Equiv.refl _, fun t => ?_⟩
    simp only [Store.step, Equiv.refl_apply, Ledger.step, reload_commit hcd.f hcd.g1 hcd.validF hcd.valid1 m v _ ((h.left i).opens.fits (by rw [Fits64, List.length_map]; exact hh)),
      reload_commit hcd.f hcd.g1 hcd.validF hcd.valid1 m v _ ((h.left i).opens'.fits (by rw [Fits64, List.length_map]; exact hh')), setAt_self, true_and]
    exact h.rng _ _
  | reloadR i m v =>
    cases op' <;> try exact htw.elim
    obtain ⟨rfl, rfl, rfl⟩ := htw
    refine ⟨Equiv.refl _, fun t => ?_⟩
    simp only [Store.step, Equiv.refl_apply, Ledger.step, reload_commit hcd.f hcd.g2 hcd.validF hcd.valid2 m v _ ((h.right i).opens.fits (by rw [Fits64, List.length_map]; exact hh)),
      reload_commit hcd.f hcd.g2 hcd.validF hcd.valid2 m v _ ((h.right i).opens'.fits (by rw [Fits64, List.length_map]; exact hh')), setAt_self, true_and]
    exact h.rng _ _
  | reloadP k m v =>
    cases op' <;> try exact htw.elim
    obtain ⟨rfl, rfl, rfl⟩ := htw
    refine ⟨Equiv.refl _, fun t => ?_⟩
    simp only [Store.step, Equiv.refl_apply, Ledger.step, reload_proofs hcd m v _ ((h.kept k).fits hh),
      reload_proofs hcd m v _ ((h.kept' k).fits hh'), setAt_self, true_and]
    exact h.rng _ _
  | prove k i j c sch =>
    cases op' <;> try exact htw.elim
    rename_i k' i' j' c' sch'
    obtain ⟨rfl, rfl, rfl, hcc⟩ := htw
    have hiff := fits_iff hcc (h.left i).kinds (h.right j).kinds
    by_cases hf : c.Fits (L.left i) (L.right j)
    · have hf' := hiff.mp hf
      obtain ⟨x1, y1, z1⟩ := hh hf
      obtain ⟨x2, y2, z2⟩ := hh' hf'
      have hx := h.left i
      have hy := h.right j
      rw [x1, x2] at hx
      rw [y1, y2] at hy
      obtain ⟨φ, hφ⟩ := runs (N := (ApiCall.prove k i j c sch : ApiCall F G1 G2 GT).draws) (prove_coupled he hu hv ku kv hcc hf.1 z1 z2 hx hy sch sch')
      refine ⟨φ, fun t => ?_⟩
      obtain ⟨pf, pf', hR, r1, r2⟩ := hφ t
      simp only [Store.step, r1, r2, Ledger.step, hf, hf', if_true, true_and]
      exact ⟨h.left, h.right, setAt_proofs h.proofs k (congrArg (fun p => [p]) hR.1),
        forall_setAt (P := Kept) h.kept k fun p h => List.mem_singleton.mp h ▸ hR.2.1,
        forall_setAt (P := Kept) h.kept' k fun p h => List.mem_singleton.mp h ▸ hR.2.2⟩
    · have hf' := hiff.not.mp hf
      refine ⟨Equiv.refl _, fun t => ?_⟩
      obtain ⟨p, r, h1⟩ := prove_panics (h.left i).opens (h.right j).opens c sch (List.ofFn t) hf
      obtain ⟨p', r', h1'⟩ := prove_panics (h.left i).opens' (h.right j).opens' c' sch' (List.ofFn t) hf'
      simp only [Store.step, Equiv.refl_apply, h1, h1', Ledger.step, hf, hf', if_false, true_and]
      exact h.rng _ _
  | commitAndProve k i j c sch =>
    cases op' <;> try exact htw.elim
    rename_i k' i' j' c' sch'
    obtain ⟨rfl, rfl, rfl, hcc⟩ := htw
    by_cases hf : c.WellFormed
    · have hf' := (wellFormed_iff hcc).mp hf
      obtain ⟨φ, hφ⟩ := runs (N := (ApiCall.commitAndProve k i j c sch : ApiCall F G1 G2 GT).draws) (cap_coupled he hu hv ku kv hcc hf (hh hf) (hh' hf') sch sch')
      refine ⟨φ, fun t => ?_⟩
      obtain ⟨cp, cp', hR, r1, r2⟩ := hφ t
      simp only [Store.step, r1, r2, Ledger.step, hf, hf', if_true, true_and]
      exact ⟨setAt_sides h.left i (by rw [numbered_vals, numbered_vals]; exact hR.x),
        setAt_sides h.right j (by rw [numbered_vals, numbered_vals]; exact hR.y), setAt_proofs h.proofs k hR.p,
        forall_setAt (P := Kept) h.kept k hR.fits, forall_setAt (P := Kept) h.kept' k hR.fits'⟩
    · have hf' := (wellFormed_iff hcc).not.mp hf
      refine ⟨Equiv.refl _, fun t => ?_⟩
      obtain ⟨p, r, h1⟩ := cap_panics (crs := crs) c sch (List.ofFn t) hf
      obtain ⟨p', r', h1'⟩ := cap_panics (crs := crs) c' sch' (List.ofFn t) hf'
      simp only [Store.step, Equiv.refl_apply, h1, h1', Ledger.step, hf, hf', if_false, true_and]
      exact h.rng _ _
  | receive k pfs =>
    cases op' <;> try exact htw.elim
    obtain ⟨rfl, rfl⟩ := htw
    exact ⟨Equiv.refl _, fun t => ⟨rfl, h.left, h.right, setAt_proofs h.proofs k rfl, forall_setAt (P := Kept) h.kept k rfl,
      forall_setAt (P := Kept) h.kept' k rfl⟩⟩
  | verify k i j q sch =>
    cases op' <;> try exact htw.elim
    obtain ⟨rfl, rfl, rfl, rfl, rfl⟩ := htw
    refine ⟨Equiv.refl _, fun t => ?_⟩
    have hs := check_same (e := e) h q sch k i j
    simp only [Store.step, Equiv.refl_apply, Ledger.step]
    cases hq : q.check e sch ⟨s.left i, s.right j, s.proofs k⟩ crs with
    | ok b =>
      rw [(hs.1 b).mp hq]
      exact ⟨rfl, h.rng _ _⟩
    | error p =>
      obtain ⟨p', hp'⟩ := hs.2.mp ⟨p, hq⟩
      rw [hp']
      exact ⟨rfl, h.rng _ _⟩

/-- The two worlds look the same to every adversary. -/
theorem play_eq [Fintype F] (he : PrimeGroups e) (hu : crs.u = [u0, u1]) (hv : crs.v = [v0, v1])
    (ku : HidingKey crs.g1_gen a1 t1 u0 u1) (kv : HidingKey crs.g2_gen a2 t2 v0 v1) {cd : Codecs F G1 G2} (hcd : cd.Lawful) (σ : Strategy F G1 G2 GT)
    (h : Rel crs L L' s s') : play e crs cd false σ L L' s = play e crs cd true σ L L' s' := by
  induction σ generalizing L L' s s' with
  | stop p => rfl
  | call op op' next ih =>
    simp only [play]
    split
    · next ha =>
      obtain ⟨φ, hφ⟩ := step_coupled he hu hv ku kv hcd h ha
      refine Fintype.expect_equiv φ _ _ fun t => ?_
      obtain ⟨h1, h2⟩ := hφ t
      simp only [Bool.false_eq_true, if_false, if_true]
      rw [h1, h2.pub]
      exact ih _ _ h2
    · rfl
  | openL i k next ih =>
    simp only [play]
    split
    · next hk =>
      have := allOpen_row_unique ku (hu ▸ (h.left i).opens) (by rw [(h.left i).coms]; exact hu ▸ (h.left i).opens') k
        (by simpa only [List.getElem?_map] using hk)
      rw [this]
      exact ih _ h
    · rfl
  | openR i k next ih =>
    simp only [play]
    split
    · next hk =>
      have := allOpen_row_unique kv (hv ▸ (h.right i).opens) (by rw [(h.right i).coms]; exact hv ▸ (h.right i).opens') k
        (by simpa only [List.getElem?_map] using hk)
      rw [this]
      exact ih _ h
    · rfl

theorem play_mem [Fintype F] (crs : CRS G1 G2 GT) (cd : Codecs F G1 G2) (b : Bool) {σ : Strategy F G1 G2 GT} (h : σ.Bounded)
    (L L' : Ledger F G1 G2 GT) (s : Store (List F) F G1 G2) : 0 ≤ play e crs cd b σ L L' s ∧ play e crs cd b σ L L' s ≤ 1 := by
  induction σ generalizing L L' s with
  | stop p => exact h
  | call op op' next ih =>
    simp only [play]
    split
    · constructor
      · exact Finset.expect_nonneg fun t _ => (ih _ _ (h _ _) _ _ _).1
      · exact Finset.expect_le Finset.univ_nonempty fun t _ => (ih _ _ (h _ _) _ _ _).2
    · simp
  | openL i k next ih =>
    simp only [play]
    split
    · exact ih _ (h _) _ _ _
    · simp
  | openR i k next ih =>
    simp only [play]
    split
    · exact ih _ (h _) _ _ _
    · simp

end steps

/-! ### How much of its tape a call reads -/

section tape

/-- On every tape of `N` scalars the program returns, having read exactly the tape. -/
def Uses {α : Type} (N : Nat) (f : List F → Res (α × List F)) : Prop :=
  ∀ t : Fin N → F, ∃ a, ∀ rest, f (List.ofFn t ++ rest) = .ok (a, rest)

theorem Uses.bind {α β : Type} {N M : Nat} {f : List F → Res (α × List F)} {g : α → List F → Res (β × List F)} (hf : Uses N f)
    (hg : ∀ t a, (∀ rest, f (List.ofFn (n := N) t ++ rest) = .ok (a, rest)) → Uses M (g a)) :
    Uses (N + M) fun s => f s >>= fun r => g r.1 r.2 := by
  intro t
  obtain ⟨⟨t1, t2⟩, rfl⟩ := (Fin.appendEquiv N M).surjective t
  obtain ⟨a, ha⟩ := hf t1
  obtain ⟨b, hb⟩ := hg t1 a ha t2
  refine ⟨b, fun rest => ?_⟩
  rw [show List.ofFn (Fin.appendEquiv N M (t1, t2)) = List.ofFn t1 ++ List.ofFn t2 from List.ofFn_fin_append _ _, List.append_assoc]
  show (f _ >>= _) = _
  rw [ha]
  exact hb rest

theorem Uses.pure {α β : Type} {N : Nat} {f : List F → Res (α × List F)} (hf : Uses N f) (g : α → β) :
    Uses N fun s => f s >>= fun r => .ok (g r.1, r.2) := by
  intro t
  obtain ⟨a, ha⟩ := hf t
  exact ⟨g a, fun rest => by show (f _ >>= _) = _; rw [ha]; rfl⟩

theorem Uses.of_eq {α : Type} {N : Nat} {f g : List F → Res (α × List F)} (hf : Uses N f) (h : f = g) : Uses N g := h ▸ hf

theorem uses_mat {α : Type} {k l N : Nat} (hN : N = k * l) {f : List F → Res (α × List F)} {out : (Fin k → Fin l → F) → α}
    (h : ∀ T rest, f ((matOf T).flatten ++ rest) = .ok (out T, rest)) : Uses N f := by
  intro t
  obtain ⟨T, hT⟩ := exists_flatten (m := k) (n := l) (l := List.ofFn t) (by simp [hN])
  exact ⟨out T, fun rest => by rw [hT]; exact h T rest⟩

theorem uses_batchL (hu : crs.u.length = 2) (b : Batch F G1) (hb : b.vals ≠ []) : Uses (F := F) b.draws (b.commitL crs).forget := by
  obtain ⟨u0, u1, hu⟩ := List.length_eq_two.mp hu
  cases b with
  | group x =>
    have hx := List.length_pos_iff.mpr (show x ≠ [] by simpa [Batch.vals] using hb)
    obtain ⟨m, hm⟩ : ∃ m, x.length = m := ⟨_, rfl⟩
    rw [Batch.draws, hm]
    rw [hm] at hx
    obtain ⟨x, rfl⟩ := exists_ofFn x hm
    refine uses_mat (k := m) (l := 2) (Nat.mul_comm _ _) (out := fun T => ⟨List.ofFn fun i => groupCom u0 u1 (x i) (T i 0, T i 1), matOf T⟩) (fun T rest => ?_)
    · rw [Batch.commitL, batchCommitG1_forget]
      exact batchCommitG1_draws hx x hu (draws_tape' (by rw [flatten_matOf_length]; omega) rest)
  | scalar x =>
    have hx := List.length_pos_iff.mpr (show x ≠ [] by simpa [Batch.vals] using hb)
    obtain ⟨m, hm⟩ : ∃ m, x.length = m := ⟨_, rfl⟩
    rw [Batch.draws, hm]
    rw [hm] at hx
    obtain ⟨x, rfl⟩ := exists_ofFn x hm
    refine uses_mat (k := m) (l := 1) (Nat.mul_one _).symm (out := fun T => ⟨List.ofFn fun i => scalarCom u0 u1 crs.g1_gen (x i) (T i 0), matOf T⟩) (fun T rest => ?_)
    · rw [Batch.commitL, batchCommitScalarToB1_forget]
      exact batchCommitB1_draws hx x hu (draws_tape' (by rw [flatten_matOf_length]; omega) rest)

theorem uses_batchR (hv : crs.v.length = 2) (b : Batch F G2) (hb : b.vals ≠ []) : Uses (F := F) b.draws (b.commitR crs).forget := by
  obtain ⟨u0, u1, hu⟩ := List.length_eq_two.mp hv
  cases b with
  | group x =>
    have hx := List.length_pos_iff.mpr (show x ≠ [] by simpa [Batch.vals] using hb)
    obtain ⟨m, hm⟩ : ∃ m, x.length = m := ⟨_, rfl⟩
    rw [Batch.draws, hm]
    rw [hm] at hx
    obtain ⟨x, rfl⟩ := exists_ofFn x hm
    refine uses_mat (k := m) (l := 2) (Nat.mul_comm _ _) (out := fun T => ⟨List.ofFn fun i => groupCom u0 u1 (x i) (T i 0, T i 1), matOf T⟩) (fun T rest => ?_)
    · rw [Batch.commitR, batchCommitG2_forget]
      exact batchCommitG2_draws hx x hu (draws_tape' (by rw [flatten_matOf_length]; omega) rest)
  | scalar x =>
    have hx := List.length_pos_iff.mpr (show x ≠ [] by simpa [Batch.vals] using hb)
    obtain ⟨m, hm⟩ : ∃ m, x.length = m := ⟨_, rfl⟩
    rw [Batch.draws, hm]
    rw [hm] at hx
    obtain ⟨x, rfl⟩ := exists_ofFn x hm
    refine uses_mat (k := m) (l := 1) (Nat.mul_one _).symm (out := fun T => ⟨List.ofFn fun i => scalarCom u0 u1 crs.g2_gen (x i) (T i 0), matOf T⟩) (fun T rest => ?_)
    · rw [Batch.commitR, batchCommitScalarToB2_forget]
      exact batchCommitB2_draws hx x hu (draws_tape' (by rw [flatten_matOf_length]; omega) rest)

/-- Whether `prove` panics does not depend on the generator; if not, it reads what the proof records. -/
theorem uses_prove (c : Claim F G1 G2 GT) (sch : Nat → Scheduler) (cx : Commit F G1) (cy : Commit F G2) :
    Uses (F := F) c.equ.draws (c.prove sch cx cy crs).forget ∨ ∀ s : List F, ((c.prove sch cx cy crs).forget s).Panics := by
  have hl : ∀ {N : Nat} (t : Fin N → F) (rest : List F), draws (F := F) G1 G2 N (List.ofFn t ++ rest) = (List.ofFn t, rest) :=
    fun t rest => draws_tape' (by simp) rest
  cases c with
  | ppe q x y =>
    by_cases h : ((Claim.ppe q x y : Claim F G1 G2 GT).prove sch cx cy crs).forget ([] : List F) |>.Ok
    · left
      rw [Claim.prove, PPE.prove_forget, (C36_ppe sch crs ([] : List F) cx cy q x y).1] at h
      intro t
      obtain ⟨⟨pf, r⟩, hp⟩ := (C36_ppe sch crs (List.ofFn t ++ []) cx cy q x y).1.mpr h
      refine ⟨pf, fun rest => ?_⟩
      rw [Claim.prove, PPE.prove_forget]
      have hr := (C39_prove sch sch crs _ _ (List.ofFn t ++ rest) rest cx cy pf).1 q x y hp
      rw [show draws (F := F) G1 G2 4 (List.ofFn t ++ []) = _ from hl t []] at hr
      exact hr.2 ((hl t rest).trans (by rw [(Prod.mk.inj hr.1).1]))
    · right
      intro s
      rw [Claim.prove, PPE.prove_forget, (C36_ppe sch crs ([] : List F) cx cy q x y).1] at h
      rw [Claim.prove, PPE.prove_forget]
      exact (C36_ppe sch crs s cx cy q x y).2.mpr h
  | msmeg1 q x y =>
    by_cases h : ((Claim.msmeg1 q x y : Claim F G1 G2 GT).prove sch cx cy crs).forget ([] : List F) |>.Ok
    · left
      rw [Claim.prove, MSMEG1.prove_forget, (C36_msmeg1 sch crs ([] : List F) cx cy q x y).1] at h
      intro t
      obtain ⟨⟨pf, r⟩, hp⟩ := (C36_msmeg1 sch crs (List.ofFn t ++ []) cx cy q x y).1.mpr h
      refine ⟨pf, fun rest => ?_⟩
      rw [Claim.prove, MSMEG1.prove_forget]
      have hr := (C39_prove sch sch crs _ _ (List.ofFn t ++ rest) rest cx cy pf).2.1 q x y hp
      rw [show draws (F := F) G1 G2 2 (List.ofFn t ++ []) = _ from hl t []] at hr
      exact hr.2 ((hl t rest).trans (by rw [(Prod.mk.inj hr.1).1]))
    · right
      intro s
      rw [Claim.prove, MSMEG1.prove_forget, (C36_msmeg1 sch crs ([] : List F) cx cy q x y).1] at h
      rw [Claim.prove, MSMEG1.prove_forget]
      exact (C36_msmeg1 sch crs s cx cy q x y).2.mpr h
  | msmeg2 q x y =>
    by_cases h : ((Claim.msmeg2 q x y : Claim F G1 G2 GT).prove sch cx cy crs).forget ([] : List F) |>.Ok
    · left
      rw [Claim.prove, MSMEG2.prove_forget, (C36_msmeg2 sch crs ([] : List F) cx cy q x y).1] at h
      intro t
      obtain ⟨⟨pf, r⟩, hp⟩ := (C36_msmeg2 sch crs (List.ofFn t ++ []) cx cy q x y).1.mpr h
      refine ⟨pf, fun rest => ?_⟩
      rw [Claim.prove, MSMEG2.prove_forget]
      have hr := (C39_prove sch sch crs _ _ (List.ofFn t ++ rest) rest cx cy pf).2.2.1 q x y hp
      rw [show draws (F := F) G1 G2 2 (List.ofFn t ++ []) = _ from hl t []] at hr
      exact hr.2 ((hl t rest).trans (by rw [(Prod.mk.inj hr.1).1]))
    · right
      intro s
      rw [Claim.prove, MSMEG2.prove_forget, (C36_msmeg2 sch crs ([] : List F) cx cy q x y).1] at h
      rw [Claim.prove, MSMEG2.prove_forget]
      exact (C36_msmeg2 sch crs s cx cy q x y).2.mpr h
  | quad q x y =>
    by_cases h : ((Claim.quad q x y : Claim F G1 G2 GT).prove sch cx cy crs).forget ([] : List F) |>.Ok
    · left
      rw [Claim.prove, QuadEqu.prove_forget, (C36_quad sch crs ([] : List F) cx cy q x y).1] at h
      intro t
      obtain ⟨⟨pf, r⟩, hp⟩ := (C36_quad sch crs (List.ofFn t ++ []) cx cy q x y).1.mpr h
      refine ⟨pf, fun rest => ?_⟩
      rw [Claim.prove, QuadEqu.prove_forget]
      have hr := (C39_prove sch sch crs _ _ (List.ofFn t ++ rest) rest cx cy pf).2.2.2 q x y hp
      rw [show draws (F := F) G1 G2 1 (List.ofFn t ++ []) = _ from hl t []] at hr
      exact hr.2 ((hl t rest).trans (by rw [(Prod.mk.inj hr.1).1]))
    · right
      intro s
      rw [Claim.prove, QuadEqu.prove_forget, (C36_quad sch crs ([] : List F) cx cy q x y).1] at h
      rw [Claim.prove, QuadEqu.prove_forget]
      exact (C36_quad sch crs s cx cy q x y).2.mpr h

theorem uses_cap (hu : crs.u.length = 2) (hv : crs.v.length = 2) (c : Claim F G1 G2 GT) (sch : Nat → Scheduler) (hw : c.WellFormed) :
    Uses (F := F) (c.xs.draws + (c.ys.draws + c.equ.draws)) (c.commitAndProve sch crs).forget := by
  classical
  refine Uses.of_eq ((uses_batchL hu c.xs hw.1).bind (g := fun cx s => (c.ys.commitR crs).forget s >>= fun r' =>
      (c.prove sch cx r'.1 crs).forget r'.2 >>= fun r'' => .ok (⟨cx, r'.1, [r''.1]⟩, r''.2)) fun t cx hcx =>
    (uses_batchR hv c.ys hw.2.1).bind (g := fun cy s => (c.prove sch cx cy crs).forget s >>= fun r'' =>
        .ok (CProof.mk cx cy [r''.1], r''.2))
      fun t' cy hcy => Uses.pure ?_ fun pf => CProof.mk cx cy [pf]) (funext fun s => (cap_forget c sch s).symm)
  refine (uses_prove c sch cx cy).resolve_right fun hp => ?_
  obtain ⟨cx', s1, h1, o1⟩ := (c.xs.commitL_ok hu (List.ofFn t ++ [])).1 hw.1
  obtain ⟨cy', s2, h2, o2⟩ := (c.ys.commitR_ok hv (List.ofFn t' ++ [])).1 hw.2.1
  rw [← Unw.forget_ok, hcx] at h1
  rw [← Unw.forget_ok, hcy] at h2
  cases h1
  cases h2
  have hd : ∀ {A : Type} {r : Res A}, r.Ok → r.Panics → False := fun h h' => by
    obtain ⟨a, rfl⟩ := h
    obtain ⟨p, hp⟩ := h'
    cases hp
  have hp := hp []
  obtain ⟨w1, w2, w3⟩ := hw
  have rx : ∀ n, AllOpen crs.u crs.g1_gen cx.coms cx.rand ((numbered n c.xs.vals).map (·.val)) := fun n => by rwa [numbered_vals]
  have ry : ∀ n, AllOpen crs.v crs.g2_gen cy.coms cy.rand ((numbered n c.ys.vals).map (·.val)) := fun n => by rwa [numbered_vals]
  have hmem1 : ∀ it ∈ numbered 0 c.xs.vals, c.xs.SameKind it.val := fun it hit => Batch.sameKind_mem (mem_numbered hit)
  have hmem2 : ∀ it ∈ numbered 0 c.ys.vals, c.ys.SameKind it.val := fun it hit => Batch.sameKind_mem (mem_numbered hit)
  have hl1 := numbered_length 0 c.xs.vals
  have hl2 := numbered_length 0 c.ys.vals
  have hu2 : 2 ≤ crs.u.length := hu.ge
  have hv2 : 2 ≤ crs.v.length := hv.ge
  cases c <;>
    simp only [Claim.xs, Claim.ys, Claim.equ, AnyEqu.Dims, Batch.vals, ne_eq, List.map_eq_nil_iff, List.length_map] at w1 w2 w3 hl1 hl2
  · rw [Claim.prove, PPE.prove_forget] at hp
    exact hd ((C36_ppe sch crs _ cx cy _ _ _).1.mpr ⟨w1, w2, (rect_group_of_allOpen (rx 0) _).mpr ⟨hl1, hmem1⟩,
      (rect_group_of_allOpen (ry 0) _).mpr ⟨hl2, hmem2⟩, w3, hu, hv⟩) hp
  · rw [Claim.prove, MSMEG1.prove_forget] at hp
    exact hd ((C36_msmeg1 sch crs _ cx cy _ _ _).1.mpr ⟨w1, w2, (rect_group_of_allOpen (rx 0) _).mpr ⟨hl1, hmem1⟩,
      (rect_scalar_of_allOpen (ry 0) _).mpr ⟨hl2, hmem2⟩, w3, hu, hv2⟩) hp
  · rw [Claim.prove, MSMEG2.prove_forget] at hp
    exact hd ((C36_msmeg2 sch crs _ cx cy _ _ _).1.mpr ⟨w1, w2, (rect_scalar_of_allOpen (rx 0) _).mpr ⟨hl1, hmem1⟩,
      (rect_group_of_allOpen (ry 0) _).mpr ⟨hl2, hmem2⟩, w3, hu2, hv⟩) hp
  · rw [Claim.prove, QuadEqu.prove_forget] at hp
    exact hd ((C36_quad sch crs _ cx cy _ _ _).1.mpr ⟨w1, w2, (rect_scalar_of_allOpen (rx 0) _).mpr ⟨hl1, hmem1⟩,
      (rect_scalar_of_allOpen (ry 0) _).mpr ⟨hl2, hmem2⟩, w3, hu2, hv2⟩) hp

theorem uses_run {α : Type} {N : Nat} {x : Unw (List F) α} (h : Uses N x.forget) (t : Fin N → F) (rest : List F) :
    ∃ a, x.run (List.ofFn t) = (.ok a, []) ∧ x.run (List.ofFn t ++ rest) = (.ok a, rest) := by
  obtain ⟨a, ha⟩ := h t
  refine ⟨a, Unw.forget_ok.mp ?_, Unw.forget_ok.mp (ha rest)⟩
  have := ha []
  rwa [List.append_nil] at this

end tape

end GS.Adaptive
