import Verif.Spec.Session
import Verif.Lemmas.Unwind
import Verif.Lemmas.Honest
import Verif.Lemmas.Complete
import Verif.Lemmas.RandLeak
import Verif.Lemmas.Serialize
import Verif.Props.Soundness
import Verif.Props.Domains
import Verif.Props.CrossKind
import Verif.Props.Commitments
import Verif.Props.Serialization
import Verif.Props.Unwind

/-! # Programs keep the invariant that the ledger describes them -/

set_option linter.unusedSectionVars false

namespace GS

section side
variable {F G : Type} [Field F] [AddCommGroup G] [Module F G]

/-- One commitment with its row of randomness opens to the value. -/
def ItemOpens (u : List (Com G)) (gen : G) (c : Com G) (r : List F) : Val F G → Prop
  | .group x => (⟨[c], [r]⟩ : Commit F G).OpensGroup u [x]
  | .scalar x => (⟨[c], [r]⟩ : Commit F G).OpensScalar u gen [x]

/-- `ItemOpens`, entry by entry. -/
def AllOpen (u : List (Com G)) (gen : G) : List (Com G) → List (List F) → List (Val F G) → Prop
  | [], [], [] => True
  | c :: cs, r :: rs, v :: vs => ItemOpens u gen c r v ∧ AllOpen u gen cs rs vs
  | _, _, _ => False

theorem allOpen_group {u : List (Com G)} {gen : G} {c : Commit F G} {xs : List G} (h : c.OpensGroup u xs) :
    AllOpen u gen c.coms c.rand (xs.map .group) := by
  obtain ⟨u0, u1, u', hu, R, hR, h1, h2⟩ := h
  rw [h1, h2]
  clear h1 h2
  induction xs generalizing R with
  | nil => cases R with
    | nil => trivial
    | cons r R => simp at hR
  | cons x xs ih => cases R with
    | nil => simp at hR
    | cons r R => exact ⟨⟨u0, u1, u', hu, [r], rfl, rfl, rfl⟩, ih R (by simpa using hR)⟩

theorem allOpen_scalar {u : List (Com G)} {gen : G} {c : Commit F G} {xs : List F} (h : c.OpensScalar u gen xs) :
    AllOpen u gen c.coms c.rand (xs.map .scalar) := by
  obtain ⟨u0, u1, u', hu, R, hR, h1, h2⟩ := h
  rw [h1, h2]
  clear h1 h2
  induction xs generalizing R with
  | nil => cases R with
    | nil => trivial
    | cons r R => simp at hR
  | cons x xs ih => cases R with
    | nil => simp at hR
    | cons r R => exact ⟨⟨u0, u1, u', hu, [r], rfl, rfl, rfl⟩, ih R (by simpa using hR)⟩

theorem opens_of_allOpen_group {u : List (Com G)} {u0 u1 : Com G} {u' : List (Com G)} (hu : u = u0 :: u1 :: u') {gen : G}
    {cs : List (Com G)} {rs : List (List F)} {xs : List G} (h : AllOpen u gen cs rs (xs.map .group)) :
    (⟨cs, rs⟩ : Commit F G).OpensGroup u xs := by
  subst hu
  induction xs generalizing cs rs with
  | nil =>
    cases cs <;> cases rs <;> simp [AllOpen] at h
    exact ⟨u0, u1, u', rfl, [], rfl, rfl, rfl⟩
  | cons x xs ih =>
    cases cs with
    | nil => cases rs <;> simp [AllOpen] at h
    | cons c cs => cases rs with
      | nil => simp [AllOpen] at h
      | cons r rs =>
        obtain ⟨⟨v0, v1, v', hv, R, hR, h1, h2⟩, h3⟩ := h
        obtain ⟨w0, w1, w', hw, R', hR', h1', h2'⟩ := ih h3
        cases hv; cases hw
        obtain ⟨p, rfl⟩ := List.length_eq_one_iff.mp hR
        simp only [List.map_cons, List.map_nil, List.cons.injEq, and_true, List.zipWith_cons_cons, List.zipWith_nil_left] at h1 h2 h1' h2'
        exact ⟨u0, u1, u', rfl, p :: R', by simp [hR'], by simp [h1, h1'], by simp [h2, h2']⟩

theorem opens_of_allOpen_scalar {u : List (Com G)} {u0 u1 : Com G} {u' : List (Com G)} (hu : u = u0 :: u1 :: u') {gen : G}
    {cs : List (Com G)} {rs : List (List F)} {xs : List F} (h : AllOpen u gen cs rs (xs.map .scalar)) :
    (⟨cs, rs⟩ : Commit F G).OpensScalar u gen xs := by
  subst hu
  induction xs generalizing cs rs with
  | nil =>
    cases cs <;> cases rs <;> simp [AllOpen] at h
    exact ⟨u0, u1, u', rfl, [], rfl, rfl, rfl⟩
  | cons x xs ih =>
    cases cs with
    | nil => cases rs <;> simp [AllOpen] at h
    | cons c cs => cases rs with
      | nil => simp [AllOpen] at h
      | cons r rs =>
        obtain ⟨⟨v0, v1, v', hv, R, hR, h1, h2⟩, h3⟩ := h
        obtain ⟨w0, w1, w', hw, R', hR', h1', h2'⟩ := ih h3
        cases hv; cases hw
        obtain ⟨p, rfl⟩ := List.length_eq_one_iff.mp hR
        simp only [List.map_cons, List.map_nil, List.cons.injEq, and_true, List.zipWith_cons_cons, List.zipWith_nil_left] at h1 h2 h1' h2'
        exact ⟨u0, u1, u', rfl, p :: R', by simp [hR'], by simp [h1, h1'], by simp [h2, h2']⟩

/-- The table `T` says which commitment and row of randomness belong to each serial number below `n`; the commitments `c` are
those of the items. -/
structure Side (u : List (Com G)) (gen : G) (T : Nat → Com G × List F) (n : Nat) (items : List (Item F G)) (c : Commit F G) :
    Prop where
  coms : c.coms = items.map fun it => (T it.id).1
  rand : c.rand = items.map fun it => (T it.id).2
  items : ∀ it ∈ items, it.id < n ∧ ItemOpens u gen (T it.id).1 (T it.id).2 it.val

variable {u : List (Com G)} {gen : G} {T T' : Nat → Com G × List F} {n n' : Nat} {items items' : List (Item F G)}
  {c c' : Commit F G}

theorem Side.mono (h : Side u gen T n items c) (hT : ∀ i < n, T' i = T i) (hn : n ≤ n') : Side u gen T' n' items c where
  coms := by
    rw [h.coms]
    exact List.map_congr_left fun it hit => by rw [hT _ (h.items it hit).1]
  rand := by
    rw [h.rand]
    exact List.map_congr_left fun it hit => by rw [hT _ (h.items it hit).1]
  items it hit := by
    rw [hT _ (h.items it hit).1]
    exact ⟨(h.items it hit).1.trans_le hn, (h.items it hit).2⟩

theorem Side.nil : Side u gen T n ([] : List (Item F G)) ⟨[], []⟩ := ⟨rfl, rfl, by simp⟩

theorem Side.append (h : Side u gen T n items c) (h' : Side u gen T n items' c') :
    Side u gen T n (items ++ items') ⟨c.coms ++ c'.coms, c.rand ++ c'.rand⟩ where
  coms := by simp [h.coms, h'.coms]
  rand := by simp [h.rand, h'.rand]
  items it hit := by
    rcases List.mem_append.mp hit with hit | hit
    · exact h.items it hit
    · exact h'.items it hit

theorem Side.lengths (h : Side u gen T n items c) : c.coms.length = items.length ∧ c.rand.length = items.length := by
  rw [h.coms, h.rand]; simp

theorem Side.allOpen (h : Side u gen T n items c) : AllOpen u gen c.coms c.rand (items.map (·.val)) := by
  rw [h.coms, h.rand]
  have := h.items
  clear h
  induction items with
  | nil => trivial
  | cons it items ih => exact ⟨(this it (by simp)).2, ih fun i hi => this i (by simp [hi])⟩

theorem ItemOpens.row {c : Com G} {r : List F} {v : Val F G} (h : ItemOpens u gen c r v) :
    (r.length = 2 ↔ ∃ x, v = .group x) ∧ (r.length = 1 ↔ ∃ x, v = .scalar x) ∧ r.length ≤ 2 := by
  cases v with
  | group x =>
    obtain ⟨u0, u1, u', hu, R, hR, h1, h2⟩ := h
    obtain ⟨p, rfl⟩ := List.length_eq_one_iff.mp hR
    simp only [List.map_cons, List.map_nil, List.cons.injEq, and_true] at h1
    subst h1
    simp
  | scalar x =>
    obtain ⟨u0, u1, u', hu, R, hR, h1, h2⟩ := h
    obtain ⟨p, rfl⟩ := List.length_eq_one_iff.mp hR
    simp only [List.map_cons, List.map_nil, List.cons.injEq, and_true] at h1
    subst h1
    simp

theorem Side.rect_group (h : Side u gen T n items c) (m : Nat) :
    Rect m 2 c.rand ↔ items.length = m ∧ ∀ it ∈ items, ∃ x, it.val = .group x := by
  rw [Rect, h.rand]
  simp only [List.length_map, List.mem_map, forall_exists_index, and_imp, forall_apply_eq_imp_iff₂]
  exact and_congr_right fun _ => forall₂_congr fun it hit => (h.items it hit).2.row.1

theorem Side.rect_scalar (h : Side u gen T n items c) (m : Nat) :
    Rect m 1 c.rand ↔ items.length = m ∧ ∀ it ∈ items, ∃ x, it.val = .scalar x := by
  rw [Rect, h.rand]
  simp only [List.length_map, List.mem_map, forall_exists_index, and_imp, forall_apply_eq_imp_iff₂]
  exact and_congr_right fun _ => forall₂_congr fun it hit => (h.items it hit).2.row.2.1

theorem Side.fits (h : Side u gen T n items c) (hf : Fits64 items) : c.Fits := by
  refine ⟨?_, ?_, ?_⟩
  · rw [Fits64, h.lengths.1]; exact hf
  · rw [Fits64, h.lengths.2]; exact hf
  · rw [h.rand]
    simp only [List.mem_map, forall_exists_index, and_imp, forall_apply_eq_imp_iff₂]
    intro it hit
    have := (h.items it hit).2.row.2.2
    unfold Fits64
    omega

/-- New commitments get an entry in the table. -/
theorem side_new (T : Nat → Com G × List F) (n : Nat) (cs : List (Com G)) (rs : List (List F)) (vs : List (Val F G))
    (h : AllOpen u gen cs rs vs) :
    ∃ T', (∀ i < n, T' i = T i) ∧ Side u gen T' (n + vs.length) (numbered n vs) ⟨cs, rs⟩ := by
  induction vs generalizing T n cs rs with
  | nil =>
    cases cs <;> cases rs <;> simp [AllOpen] at h
    exact ⟨T, fun _ _ => rfl, Side.nil⟩
  | cons v vs ih =>
    cases cs with
    | nil => cases rs <;> simp [AllOpen] at h
    | cons c cs => cases rs with
      | nil => simp [AllOpen] at h
      | cons r rs =>
        obtain ⟨T', h1, h2⟩ := ih (setAt T n (c, r)) (n + 1) cs rs h.2
        have hn : T' n = (c, r) := by rw [h1 n (by omega)]; simp [setAt]
        refine ⟨T', fun i hi => ?_, ?_, ?_, ?_⟩
        · rw [h1 i (by omega), setAt, if_neg (by omega)]
        · simp only [numbered, List.map_cons, hn, ← h2.coms]
        · simp only [numbered, List.map_cons, hn, ← h2.rand]
        · intro it hit
          rcases List.mem_cons.mp hit with rfl | hit
          · rw [hn]; exact ⟨by simp, h.1⟩
          · refine ⟨?_, (h2.items it hit).2⟩
            have := (h2.items it hit).1
            simp only [List.length_cons]; omega

theorem numbered_vals (n : Nat) (vs : List (Val F G)) : (numbered n vs).map (·.val) = vs := by
  induction vs generalizing n with
  | nil => rfl
  | cons v vs ih => simp [numbered, ih]

theorem numbered_length (n : Nat) (vs : List (Val F G)) : (numbered n vs).length = vs.length := by
  rw [← List.length_map (·.val), numbered_vals]

theorem mem_numbered {n : Nat} {vs : List (Val F G)} {it : Item F G} (h : it ∈ numbered n vs) : it.val ∈ vs := by
  rw [← numbered_vals n vs]; exact List.mem_map_of_mem h

theorem Batch.sameKind_mem {b : Batch F G} {v : Val F G} (h : v ∈ b.vals) : b.SameKind v := by
  cases b with
  | group xs => obtain ⟨x, -, rfl⟩ := List.mem_map.mp h; exact ⟨x, rfl⟩
  | scalar xs => obtain ⟨x, -, rfl⟩ := List.mem_map.mp h; exact ⟨x, rfl⟩

end side

section prover
variable {F G1 G2 GT ρ : Type} [Field F] [AddCommGroup G1] [Module F G1] [AddCommGroup G2] [Module F G2]
  [AddCommGroup GT] [Module F GT] [DecidableEq GT] [Rng ρ F G1 G2]
variable {e : G1 →ₗ[F] G2 →ₗ[F] GT} {crs : CRS G1 G2 GT}

theorem Val.commitL_ok (hu : crs.u.length = 2) (v : Val F G1) (s : ρ) :
    ∃ (c : Commit F G1) (s' : ρ), (v.commitL crs).run s = (.ok c, s') ∧ AllOpen crs.u crs.g1_gen c.coms c.rand [v] := by
  cases v with
  | group x =>
    obtain ⟨c, s', h, ho⟩ := commitG1_opens (F := F) (key := crs) (by omega) x s
    exact ⟨c, s', Unw.forget_ok.mp ((commitG1_forget x crs s).trans h), allOpen_group (xs := [x]) ho⟩
  | scalar x =>
    obtain ⟨c, s', h, ho⟩ := commitScalarToB1_opens (F := F) (key := crs) (by omega) x s
    exact ⟨c, s', Unw.forget_ok.mp ((commitScalarToB1_forget x crs s).trans h), allOpen_scalar (xs := [x]) ho⟩

theorem Val.commitR_ok (hv : crs.v.length = 2) (v : Val F G2) (s : ρ) :
    ∃ (c : Commit F G2) (s' : ρ), (v.commitR crs).run s = (.ok c, s') ∧ AllOpen crs.v crs.g2_gen c.coms c.rand [v] := by
  cases v with
  | group x =>
    obtain ⟨c, s', h, ho⟩ := commitG2_opens (F := F) (key := crs) (by omega) x s
    exact ⟨c, s', Unw.forget_ok.mp ((commitG2_forget x crs s).trans h), allOpen_group (xs := [x]) ho⟩
  | scalar x =>
    obtain ⟨c, s', h, ho⟩ := commitScalarToB2_opens (F := F) (key := crs) (by omega) x s
    exact ⟨c, s', Unw.forget_ok.mp ((commitScalarToB2_forget x crs s).trans h), allOpen_scalar (xs := [x]) ho⟩

theorem Unw.run_of_panics {α : Type} {x : Unw ρ α} {s : ρ} (h : (x.forget s).Panics) : ∃ p s', x.run s = (.error p, s') := by
  obtain ⟨p, hp⟩ := h
  exact ⟨p, (x.run s).2, by rw [← Unw.forget_error.mp hp]⟩

theorem Batch.commitL_ok (hu : crs.u.length = 2) (b : Batch F G1) (s : ρ) :
    (b.vals ≠ [] → ∃ (c : Commit F G1) (s' : ρ), (b.commitL crs).run s = (.ok c, s') ∧
      AllOpen crs.u crs.g1_gen c.coms c.rand b.vals) ∧
    (b.vals = [] → ∃ p s', (b.commitL crs).run s = (.error p, s')) := by
  cases b with
  | group x =>
    refine ⟨fun hx => ?_, fun hx => ?_⟩
    · obtain ⟨c, s', h, ho⟩ := batchCommitG1_opens (F := F) (key := crs) (rng := s) (x := x) (by simpa [Batch.vals] using hx) hu
      exact ⟨c, s', Unw.forget_ok.mp ((batchCommitG1_forget x crs s).trans h), allOpen_group (xs := x) ho⟩
    · obtain rfl : x = [] := by simpa [Batch.vals] using hx
      exact Unw.run_of_panics ((batchCommitG1_forget (F := F) [] crs s) ▸ (C48_batch_empty (F := F) crs s).1)
  | scalar x =>
    refine ⟨fun hx => ?_, fun hx => ?_⟩
    · obtain ⟨c, s', h, ho⟩ := batchCommitScalarToB1_opens (F := F) (key := crs) (rng := s) (x := x) (by simpa [Batch.vals] using hx)
        (by omega)
      exact ⟨c, s', Unw.forget_ok.mp ((batchCommitScalarToB1_forget x crs s).trans h), allOpen_scalar (xs := x) ho⟩
    · obtain rfl : x = [] := by simpa [Batch.vals] using hx
      exact Unw.run_of_panics ((batchCommitScalarToB1_forget (F := F) [] crs s) ▸ (C48_batch_empty (F := F) crs s).2.2.1)

theorem Batch.commitR_ok (hv : crs.v.length = 2) (b : Batch F G2) (s : ρ) :
    (b.vals ≠ [] → ∃ (c : Commit F G2) (s' : ρ), (b.commitR crs).run s = (.ok c, s') ∧
      AllOpen crs.v crs.g2_gen c.coms c.rand b.vals) ∧
    (b.vals = [] → ∃ p s', (b.commitR crs).run s = (.error p, s')) := by
  cases b with
  | group x =>
    refine ⟨fun hx => ?_, fun hx => ?_⟩
    · obtain ⟨c, s', h, ho⟩ := batchCommitG2_opens (F := F) (key := crs) (rng := s) (x := x) (by simpa [Batch.vals] using hx) hv
      exact ⟨c, s', Unw.forget_ok.mp ((batchCommitG2_forget x crs s).trans h), allOpen_group (xs := x) ho⟩
    · obtain rfl : x = [] := by simpa [Batch.vals] using hx
      exact Unw.run_of_panics ((batchCommitG2_forget (F := F) [] crs s) ▸ (C48_batch_empty (F := F) crs s).2.1)
  | scalar x =>
    refine ⟨fun hx => ?_, fun hx => ?_⟩
    · obtain ⟨c, s', h, ho⟩ := batchCommitScalarToB2_opens (F := F) (key := crs) (rng := s) (x := x) (by simpa [Batch.vals] using hx)
        (by omega)
      exact ⟨c, s', Unw.forget_ok.mp ((batchCommitScalarToB2_forget x crs s).trans h), allOpen_scalar (xs := x) ho⟩
    · obtain rfl : x = [] := by simpa [Batch.vals] using hx
      exact Unw.run_of_panics ((batchCommitScalarToB2_forget (F := F) [] crs s) ▸ (C48_batch_empty (F := F) crs s).2.2.2)

theorem fitsMat_small (T : Matrix F) (h : T.length ≤ 2) (h' : ∀ r ∈ T, r.length ≤ 2) : FitsMat T := by
  refine ⟨by unfold Fits64; omega, fun r hr => ?_⟩
  have := h' r hr
  unfold Fits64; omega

theorem asGroup_groups {G : Type} [AddCommGroup G] [Module F G] (gen : G) (x : List G) :
    (x.map (Val.group (F := F))).map (Val.asGroup gen) = x := by
  simp [Function.comp_def, Val.asGroup]

theorem asScalars_scalars {G : Type} [AddCommGroup G] [Module F G] {gen : G} (h0 : gen ≠ 0) {x s : List F}
    (h : AsScalars gen (x.map (Val.scalar (G := G))) s) : s = x := by
  have h' : x.map (fun a => a • gen) = s.map fun a => a • gen := by
    simpa [AsScalars, Function.comp_def, Val.asGroup] using h
  exact (List.map_injective_iff.mpr (fun a b hab => smul_cancel h0 hab) h').symm

/-- What is kept about a proof made for a claim. -/
structure MadeOk (e : G1 →ₗ[F] G2 →ₗ[F] GT) (crs : CRS G1 G2 GT) (c : Claim F G1 G2 GT) (xs : List (Val F G1)) (ys : List (Val F G2))
    (cs : List (Com G1)) (ds : List (Com G2)) (pf : EquProof F G1 G2) : Prop where
  shape : (pf.equ_type, pf.pi.length, pf.theta.length) = c.equ.shape
  fits : pf.Fits
  honest : xs = c.xs.vals → ys = c.ys.vals → ∀ sch (cp : CProof F G1 G2), cp.xcoms.coms = cs → cp.ycoms.coms = ds →
    cp.equ_proofs = [pf] → c.equ.SatBy e crs xs ys → c.equ.check e sch cp crs = .ok true

theorem Claim.prove_ok (hc : GeneratedCrs e crs) (h0 : crs.NonzeroGens) {T1 : Nat → Com G1 × List F}
    {T2 : Nat → Com G2 × List F} {n : Nat} {xs : List (Item F G1)} {ys : List (Item F G2)} {cx : Commit F G1} {cy : Commit F G2}
    (hx : Side crs.u crs.g1_gen T1 n xs cx) (hy : Side crs.v crs.g2_gen T2 n ys cy) (c : Claim F G1 G2 GT)
    (sch : Nat → Scheduler) (s : ρ) :
    (c.Fits xs ys → ∃ pf s', (c.prove sch cx cy crs).run s = (.ok pf, s') ∧
      MadeOk e crs c (xs.map (·.val)) (ys.map (·.val)) cx.coms cy.coms pf) ∧
    (¬ c.Fits xs ys → ∃ p s', (c.prove sch cx cy crs).run s = (.error p, s')) := by
  have hu := hc.length_u
  have hv := hc.length_v
  obtain ⟨u0, u1, hue⟩ := List.length_eq_two.mp hu
  obtain ⟨v0, v1, hve⟩ := List.length_eq_two.mp hv
  cases c with
  | ppe q x y =>
    have hdom := C36_ppe sch crs s cx cy q x y
    have hF : (Claim.ppe q x y).Fits xs ys ↔ x ≠ [] ∧ y ≠ [] ∧ Rect x.length 2 cx.rand ∧ Rect y.length 2 cy.rand ∧
        q.Dims x.length y.length ∧ crs.u.length = 2 ∧ crs.v.length = 2 := by
      rw [hx.rect_group, hy.rect_group]
      simp only [Claim.Fits, Claim.WellFormed, Claim.xs, Claim.ys, Claim.equ, Batch.vals, AnyEqu.Dims, Batch.SameKind, List.length_map,
        ne_eq, List.map_eq_nil_iff]
      tauto
    refine ⟨fun hf => ?_, fun hf => ?_⟩
    · obtain ⟨⟨pf, s'⟩, h⟩ := hdom.1.mpr (hF.mp hf)
      refine ⟨pf, s', Unw.forget_ok.mp ((PPE.prove_forget sch q x y cx cy crs s).trans h), ?_, ?_, ?_⟩
      · obtain ⟨-, h1, h2, h3⟩ := (C38_proofs sch crs s s' cx cy pf).1 q x y h
        simp [Claim.equ, AnyEqu.shape, h1, h2, h3]
      · rw [PPE.prove_eq] at h
        obtain ⟨-, h1, h2, h3⟩ := proveCore_rand h
        exact ⟨by unfold Fits64; omega, by unfold Fits64; omega, h1 ▸ fitsMat_small _ (by simp) (by simp)⟩
      · intro hxs hys sch' cp hcx hcy hpf hsat
        have ho1 : cx.OpensGroup crs.u x := opens_of_allOpen_group hue (by have := hx.allOpen; rwa [hxs] at this)
        have ho2 : cy.OpensGroup crs.v y := opens_of_allOpen_group hve (by have := hy.allOpen; rwa [hys] at this)
        obtain ⟨d1, d2, -, -, d3, -⟩ := hF.mp hf
        obtain ⟨pf', s'', h', -, -, -, hver⟩ := PPE.honest e sch q x y cx cy crs s d1 d2 d3 hu hv ho1 ho2
        rw [h] at h'
        cases h'
        obtain ⟨b, hb, hb'⟩ := hver sch' cp hcx hcy hpf
        have : b = true := hb'.mpr (by
          rw [hxs, hys] at hsat
          simpa only [Claim.equ, Claim.xs, Claim.ys, Batch.vals, AnyEqu.SatBy, asGroup_groups] using hsat)
        exact this ▸ hb
    · exact Unw.run_of_panics ((PPE.prove_forget sch q x y cx cy crs s) ▸ hdom.2.mpr (fun h => hf (hF.mpr h)))
  | msmeg1 q x y =>
    have hdom := C36_msmeg1 sch crs s cx cy q x y
    have hv2 : 2 ≤ crs.v.length := hv.ge
    have hF : (Claim.msmeg1 q x y : Claim F G1 G2 GT).Fits xs ys ↔ x ≠ [] ∧ y ≠ [] ∧ Rect x.length 2 cx.rand ∧ Rect y.length 1 cy.rand ∧
        q.Dims x.length y.length ∧ crs.u.length = 2 ∧ 2 ≤ crs.v.length := by
      rw [hx.rect_group, hy.rect_scalar]
      simp only [Claim.Fits, Claim.WellFormed, Claim.xs, Claim.ys, Claim.equ, Batch.vals, AnyEqu.Dims, Batch.SameKind, List.length_map,
        ne_eq, List.map_eq_nil_iff]
      tauto
    refine ⟨fun hf => ?_, fun hf => ?_⟩
    · obtain ⟨⟨pf, s'⟩, h⟩ := hdom.1.mpr (hF.mp hf)
      refine ⟨pf, s', Unw.forget_ok.mp ((MSMEG1.prove_forget sch q x y cx cy crs s).trans h), ?_, ?_, ?_⟩
      · obtain ⟨-, h1, h2, h3⟩ := (C38_proofs sch crs s s' cx cy pf).2.1 q x y h
        simp [Claim.equ, AnyEqu.shape, h1, h2, h3]
      · rw [MSMEG1.prove_eq] at h
        obtain ⟨-, h1, h2, h3⟩ := proveCore_rand h
        exact ⟨by unfold Fits64; omega, by unfold Fits64; omega, h1 ▸ fitsMat_small _ (by simp) (by simp)⟩
      · intro hxs hys sch' cp hcx hcy hpf hsat
        have ho1 : cx.OpensGroup crs.u x := opens_of_allOpen_group hue (by have := hx.allOpen; rwa [hxs] at this)
        have ho2 : cy.OpensScalar crs.v crs.g2_gen y := opens_of_allOpen_scalar hve (by have := hy.allOpen; rwa [hys] at this)
        obtain ⟨d1, d2, -, -, d3, -⟩ := hF.mp hf
        obtain ⟨pf', s'', h', -, -, -, hver⟩ := MSMEG1.honest e sch q x y cx cy crs s d1 d2 d3 hu hve ho1 ho2
        rw [h] at h'
        cases h'
        obtain ⟨b, hb, hb'⟩ := hver sch' cp hcx hcy hpf
        have : b = true := hb'.mpr (by
          rw [hxs, hys] at hsat
          simp only [Claim.equ, Claim.xs, Claim.ys, Batch.vals, AnyEqu.SatBy, asGroup_groups] at hsat
          obtain ⟨y', h1, h2⟩ := hsat
          rw [asScalars_scalars h0.2 h1] at h2
          exact congrArg _ h2)
        exact this ▸ hb
    · exact Unw.run_of_panics ((MSMEG1.prove_forget sch q x y cx cy crs s) ▸ hdom.2.mpr (fun h => hf (hF.mpr h)))
  | msmeg2 q x y =>
    have hdom := C36_msmeg2 sch crs s cx cy q x y
    have hu2 : 2 ≤ crs.u.length := hu.ge
    have hF : (Claim.msmeg2 q x y : Claim F G1 G2 GT).Fits xs ys ↔ x ≠ [] ∧ y ≠ [] ∧ Rect x.length 1 cx.rand ∧ Rect y.length 2 cy.rand ∧
        q.Dims x.length y.length ∧ 2 ≤ crs.u.length ∧ crs.v.length = 2 := by
      rw [hx.rect_scalar, hy.rect_group]
      simp only [Claim.Fits, Claim.WellFormed, Claim.xs, Claim.ys, Claim.equ, Batch.vals, AnyEqu.Dims, Batch.SameKind, List.length_map,
        ne_eq, List.map_eq_nil_iff]
      tauto
    refine ⟨fun hf => ?_, fun hf => ?_⟩
    · obtain ⟨⟨pf, s'⟩, h⟩ := hdom.1.mpr (hF.mp hf)
      refine ⟨pf, s', Unw.forget_ok.mp ((MSMEG2.prove_forget sch q x y cx cy crs s).trans h), ?_, ?_, ?_⟩
      · obtain ⟨-, h1, h2, h3⟩ := (C38_proofs sch crs s s' cx cy pf).2.2.1 q x y h
        simp [Claim.equ, AnyEqu.shape, h1, h2, h3]
      · rw [MSMEG2.prove_eq] at h
        obtain ⟨-, h1, h2, h3⟩ := proveCore_rand h
        exact ⟨by unfold Fits64; omega, by unfold Fits64; omega, h1 ▸ fitsMat_small _ (by simp) (by simp)⟩
      · intro hxs hys sch' cp hcx hcy hpf hsat
        have ho1 : cx.OpensScalar crs.u crs.g1_gen x := opens_of_allOpen_scalar hue (by have := hx.allOpen; rwa [hxs] at this)
        have ho2 : cy.OpensGroup crs.v y := opens_of_allOpen_group hve (by have := hy.allOpen; rwa [hys] at this)
        obtain ⟨d1, d2, -, -, d3, -⟩ := hF.mp hf
        obtain ⟨pf', s'', h', -, -, -, hver⟩ := MSMEG2.honest e sch q x y cx cy crs s d1 d2 d3 hue hv ho1 ho2
        rw [h] at h'
        cases h'
        obtain ⟨b, hb, hb'⟩ := hver sch' cp hcx hcy hpf
        have : b = true := hb'.mpr (by
          rw [hxs, hys] at hsat
          simp only [Claim.equ, Claim.xs, Claim.ys, Batch.vals, AnyEqu.SatBy, asGroup_groups] at hsat
          obtain ⟨y', h1, h2⟩ := hsat
          rw [asScalars_scalars h0.1 h1] at h2
          exact congrArg _ h2)
        exact this ▸ hb
    · exact Unw.run_of_panics ((MSMEG2.prove_forget sch q x y cx cy crs s) ▸ hdom.2.mpr (fun h => hf (hF.mpr h)))
  | quad q x y =>
    have hdom := C36_quad sch crs s cx cy q x y
    have hu2 : 2 ≤ crs.u.length := hu.ge
    have hv2 : 2 ≤ crs.v.length := hv.ge
    have hF : (Claim.quad q x y : Claim F G1 G2 GT).Fits xs ys ↔ x ≠ [] ∧ y ≠ [] ∧ Rect x.length 1 cx.rand ∧ Rect y.length 1 cy.rand ∧
        q.Dims x.length y.length ∧ 2 ≤ crs.u.length ∧ 2 ≤ crs.v.length := by
      rw [hx.rect_scalar, hy.rect_scalar]
      simp only [Claim.Fits, Claim.WellFormed, Claim.xs, Claim.ys, Claim.equ, Batch.vals, AnyEqu.Dims, Batch.SameKind, List.length_map,
        ne_eq, List.map_eq_nil_iff]
      tauto
    refine ⟨fun hf => ?_, fun hf => ?_⟩
    · obtain ⟨⟨pf, s'⟩, h⟩ := hdom.1.mpr (hF.mp hf)
      refine ⟨pf, s', Unw.forget_ok.mp ((QuadEqu.prove_forget sch q x y cx cy crs s).trans h), ?_, ?_, ?_⟩
      · obtain ⟨-, h1, h2, h3⟩ := (C38_proofs sch crs s s' cx cy pf).2.2.2 q x y h
        simp [Claim.equ, AnyEqu.shape, h1, h2, h3]
      · rw [QuadEqu.prove_eq] at h
        obtain ⟨-, h1, h2, h3⟩ := proveCore_rand h
        exact ⟨by unfold Fits64; omega, by unfold Fits64; omega, h1 ▸ fitsMat_small _ (by simp) (by simp)⟩
      · intro hxs hys sch' cp hcx hcy hpf hsat
        have ho1 : cx.OpensScalar crs.u crs.g1_gen x := opens_of_allOpen_scalar hue (by have := hx.allOpen; rwa [hxs] at this)
        have ho2 : cy.OpensScalar crs.v crs.g2_gen y := opens_of_allOpen_scalar hve (by have := hy.allOpen; rwa [hys] at this)
        obtain ⟨d1, d2, -, -, d3, -⟩ := hF.mp hf
        obtain ⟨pf', s'', h', -, -, -, hver⟩ := QuadEqu.honest e sch q x y cx cy crs s d1 d2 d3 hue hve ho1 ho2
        rw [h] at h'
        cases h'
        obtain ⟨b, hb, hb'⟩ := hver sch' cp hcx hcy hpf
        have : b = true := hb'.mpr (by
          rw [hxs, hys] at hsat
          simp only [Claim.equ, Claim.xs, Claim.ys, Batch.vals, AnyEqu.SatBy] at hsat
          obtain ⟨x', y', h1, h2, h3⟩ := hsat
          rw [asScalars_scalars h0.1 h1, asScalars_scalars h0.2 h2] at h3
          exact congrArg _ h3)
        exact this ▸ hb
    · exact Unw.run_of_panics ((QuadEqu.prove_forget sch q x y cx cy crs s) ▸ hdom.2.mpr (fun h => hf (hF.mpr h)))

theorem Claim.commitAndProve_ok (hc : GeneratedCrs e crs) (h0 : crs.NonzeroGens) (T1 : Nat → Com G1 × List F)
    (T2 : Nat → Com G2 × List F) (n : Nat) (c : Claim F G1 G2 GT) (sch : Nat → Scheduler) (s : ρ) :
    (c.WellFormed → ∃ cp s' T1' T2' pf, (c.commitAndProve sch crs).run s = (.ok cp, s') ∧ (∀ i < n, T1' i = T1 i) ∧
      (∀ i < n, T2' i = T2 i) ∧
      Side crs.u crs.g1_gen T1' (n + c.xs.vals.length + c.ys.vals.length) (numbered n c.xs.vals) cp.xcoms ∧
      Side crs.v crs.g2_gen T2' (n + c.xs.vals.length + c.ys.vals.length) (numbered (n + c.xs.vals.length) c.ys.vals) cp.ycoms ∧
      cp.equ_proofs = [pf] ∧ MadeOk e crs c c.xs.vals c.ys.vals cp.xcoms.coms cp.ycoms.coms pf) ∧
    (¬ c.WellFormed → ∃ p s', (c.commitAndProve sch crs).run s = (.error p, s')) := by
  have hu := hc.length_u
  have hv := hc.length_v
  have hu2 : 2 ≤ crs.u.length := hu.ge
  have hv2 : 2 ≤ crs.v.length := hv.ge
  refine ⟨fun hw => ?_, fun hw => ?_⟩
  · obtain ⟨cx, s1, h1, o1⟩ := (c.xs.commitL_ok hu s).1 hw.1
    obtain ⟨cy, s2, h2, o2⟩ := (c.ys.commitR_ok hv s1).1 hw.2.1
    obtain ⟨T1', a1, b1⟩ := side_new T1 n _ _ _ o1
    obtain ⟨T2', a2, b2⟩ := side_new T2 (n + c.xs.vals.length) _ _ _ o2
    have b1' := b1.mono (T' := T1') (fun _ _ => rfl) (Nat.le_add_right _ c.ys.vals.length)
    have hfit : c.Fits (numbered n c.xs.vals) (numbered (n + c.xs.vals.length) c.ys.vals) :=
      ⟨hw, ⟨numbered_length _ _, fun it hit => Batch.sameKind_mem (mem_numbered hit)⟩,
        numbered_length _ _, fun it hit => Batch.sameKind_mem (mem_numbered hit)⟩
    obtain ⟨pf, s3, h3, m⟩ := (Claim.prove_ok hc h0 b1' b2 c sch s2).1 hfit
    rw [numbered_vals, numbered_vals] at m
    refine ⟨⟨cx, cy, [pf]⟩, s3, T1', T2', pf, ?_, a1, fun i hi => a2 i (by omega), b1', b2, rfl, m⟩
    rw [← Unw.forget_ok] at h1 h2 h3 ⊢
    cases c <;>
    · simp only [Claim.commitAndProve, PPE.commitAndProveU, MSMEG1.commitAndProveU, MSMEG2.commitAndProveU, QuadEqu.commitAndProveU,
        Unw.forget_bind]
      simp only [Claim.xs, Claim.ys, Claim.prove, Batch.commitL, Batch.commitR] at h1 h2 h3
      rw [h1]
      simp only [ok_bind]
      rw [h2]
      simp only [ok_bind]
      rw [h3]
      rfl
  · apply Unw.run_of_panics
    obtain ⟨d1, d2, d3, d4⟩ := C36_commit_and_prove (F := F) (GT := GT) sch crs s
    cases c with
    | ppe q x y =>
      rw [Claim.commitAndProve, PPE.cap_forget, panics_iff_not_ok, d1]
      rintro ⟨k1, k2, k3, -⟩
      exact hw ⟨by simpa [Claim.xs, Batch.vals] using k1, by simpa [Claim.ys, Batch.vals] using k2,
        by simpa [Claim.xs, Claim.ys, Batch.vals, Claim.equ, AnyEqu.Dims] using k3⟩
    | msmeg1 q x y =>
      rw [Claim.commitAndProve, MSMEG1.cap_forget, panics_iff_not_ok, d2]
      rintro ⟨k1, k2, k3, -⟩
      exact hw ⟨by simpa [Claim.xs, Batch.vals] using k1, by simpa [Claim.ys, Batch.vals] using k2,
        by simpa [Claim.xs, Claim.ys, Batch.vals, Claim.equ, AnyEqu.Dims] using k3⟩
    | msmeg2 q x y =>
      rw [Claim.commitAndProve, MSMEG2.cap_forget, panics_iff_not_ok, d3]
      rintro ⟨k1, k2, k3, -⟩
      exact hw ⟨by simpa [Claim.xs, Batch.vals] using k1, by simpa [Claim.ys, Batch.vals] using k2,
        by simpa [Claim.xs, Claim.ys, Batch.vals, Claim.equ, AnyEqu.Dims] using k3⟩
    | quad q x y =>
      rw [Claim.commitAndProve, QuadEqu.cap_forget, panics_iff_not_ok, d4]
      rintro ⟨k1, k2, k3, -⟩
      exact hw ⟨by simpa [Claim.xs, Batch.vals] using k1, by simpa [Claim.ys, Batch.vals] using k2,
        by simpa [Claim.xs, Claim.ys, Batch.vals, Claim.equ, AnyEqu.Dims] using k3⟩

end prover

section verifier
variable {F G1 G2 GT : Type} [Field F] [AddCommGroup G1] [Module F G1] [AddCommGroup G2] [Module F G2]
  [AddCommGroup GT] [Module F GT] [DecidableEq GT]
variable {e : G1 →ₗ[F] G2 →ₗ[F] GT} {crs : CRS G1 G2 GT}

theorem AnyEqu.check_dom (hu : crs.u.length = 2) (hv : crs.v.length = 2) (q : AnyEqu F G1 G2 GT) (sch : Scheduler)
    (cp : CProof F G1 G2) :
    (q.check e sch cp crs).Ok ↔ (∃ pf, cp.equ_proofs = [pf] ∧ pf.equ_type = q.tag ∧ q.TakesProof pf.pi.length pf.theta.length) ∧
      q.Takes cp.xcoms.coms.length cp.ycoms.coms.length := by
  cases q with
  | ppe q =>
    simp only [AnyEqu.check, C37_ppe, AnyEqu.tag, AnyEqu.TakesProof, AnyEqu.Takes, hu, hv]
    exact ⟨fun ⟨pf, a, b, c, d, f, g, h⟩ => ⟨⟨pf, a, b, g, h⟩, c, d, f⟩, fun ⟨⟨pf, a, b, g, h⟩, c, d, f⟩ => ⟨pf, a, b, c, d, f, g, h⟩⟩
  | msmeg1 q =>
    simp only [AnyEqu.check, C37_msmeg1, AnyEqu.tag, AnyEqu.TakesProof, AnyEqu.Takes, hu, hv, ne_eq, List.length_eq_zero_iff]
    exact ⟨fun ⟨pf, a, b, c, d, f, g, h, _⟩ => ⟨⟨pf, a, b, g, h⟩, c, d, f⟩,
      fun ⟨⟨pf, a, b, g, h⟩, c, d, f⟩ => ⟨pf, a, b, c, d, f, g, h, le_refl _⟩⟩
  | msmeg2 q =>
    simp only [AnyEqu.check, C37_msmeg2, AnyEqu.tag, AnyEqu.TakesProof, AnyEqu.Takes, hu, hv, ne_eq, List.length_eq_zero_iff]
    exact ⟨fun ⟨pf, a, b, c, d, f, g, _, h⟩ => ⟨⟨pf, a, b, g, h⟩, c, d, f⟩,
      fun ⟨⟨pf, a, b, g, h⟩, c, d, f⟩ => ⟨pf, a, b, c, d, f, g, le_refl _, h⟩⟩
  | quad q =>
    simp only [AnyEqu.check, C37_quad, AnyEqu.tag, AnyEqu.TakesProof, AnyEqu.Takes, hu, hv, ne_eq, List.length_eq_zero_iff]
    exact ⟨fun ⟨pf, a, b, c, d, f, g, _, h, _⟩ => ⟨⟨pf, a, b, g, h⟩, c, d, f⟩,
      fun ⟨⟨pf, a, b, g, h⟩, c, d, f⟩ => ⟨pf, a, b, c, d, f, g, le_refl _, h, le_refl _⟩⟩

theorem allOpen_read {G : Type} [AddCommGroup G] [Module F G] {u : List (Com G)} {gen : G} {X : Com G → G}
    (hX : ∀ c v, CanOpenGroup F u c v ↔ v = X c) (ho : ∀ c (s : F), CanOpenScalar u gen c s ↔ CanOpenGroup F u c (s • gen))
    {cs : List (Com G)} {rs : List (List F)} {vs : List (Val F G)} (h : AllOpen u gen cs rs vs) :
    vs.map (Val.asGroup gen) = cs.map X := by
  induction vs generalizing cs rs with
  | nil => cases cs <;> cases rs <;> simp [AllOpen] at h ⊢
  | cons v vs ih =>
    cases cs with
    | nil => cases rs <;> simp [AllOpen] at h
    | cons c cs => cases rs with
      | nil => simp [AllOpen] at h
      | cons r rs =>
        rw [List.map_cons, List.map_cons, ih h.2]
        congr 1
        rw [← hX]
        have h1 := h.1
        cases v with
        | group x =>
          obtain ⟨u0, u1, u', hu, R, hR, -, h2⟩ := h1
          obtain ⟨p, rfl⟩ := List.length_eq_one_iff.mp hR
          exact ⟨u0, u1, u', hu, p, by simpa [Val.asGroup] using h2⟩
        | scalar x =>
          obtain ⟨u0, u1, u', hu, R, hR, -, h2⟩ := h1
          obtain ⟨p, rfl⟩ := List.length_eq_one_iff.mp hR
          exact (ho c x).mp ⟨u0, u1, u', hu, p, by simpa using h2⟩

theorem AnyEqu.check_sound (he : PrimeGroups e) (hc : GeneratedCrs e crs) (h0 : crs.NonzeroGens) (q : AnyEqu F G1 G2 GT)
    (sch : Scheduler) (cp : CProof F G1 G2) {xs : List (Val F G1)} {ys : List (Val F G2)} {rx ry : List (List F)}
    (hx : AllOpen crs.u crs.g1_gen cp.xcoms.coms rx xs) (hy : AllOpen crs.v crs.g2_gen cp.ycoms.coms ry ys)
    (h : q.check e sch cp crs = .ok true) : q.SatBy e crs xs ys := by
  obtain ⟨X, x, Y, y, hX, hx', hY, hy', s1, s2, s3, s4⟩ := C12_joint_soundness e he crs hc h0
  obtain ⟨o1, o2⟩ := C78_open_iff e he crs hc h0
  have r1 := allOpen_read hX o1 hx
  have r2 := allOpen_read hY o2 hy
  have k1 : AsScalars crs.g1_gen xs (cp.xcoms.coms.map x) := by
    rw [AsScalars, r1, List.map_map]
    exact List.map_congr_left fun c _ => ((hX c _).mp ((o1 c _).mp ((hx' c _).mpr rfl))).symm
  have k2 : AsScalars crs.g2_gen ys (cp.ycoms.coms.map y) := by
    rw [AsScalars, r2, List.map_map]
    exact List.map_congr_left fun c _ => ((hY c _).mp ((o2 c _).mp ((hy' c _).mpr rfl))).symm
  cases q with
  | ppe q => simp only [AnyEqu.SatBy, r1, r2]; exact s1 q cp sch h
  | msmeg1 q => simp only [AnyEqu.SatBy, r1]; exact ⟨_, k2, s2 q cp sch h⟩
  | msmeg2 q => simp only [AnyEqu.SatBy, r2]; exact ⟨_, k1, s3 q cp sch h⟩
  | quad q => exact ⟨_, _, k1, k2, s4 q cp sch h⟩

end verifier

section invariant
variable {F G1 G2 GT ρ : Type} [Field F] [AddCommGroup G1] [Module F G1] [AddCommGroup G2] [Module F G2]
  [AddCommGroup GT] [Module F GT] [DecidableEq GT] [Rng ρ F G1 G2]
variable {e : G1 →ₗ[F] G2 →ₗ[F] GT} {crs : CRS G1 G2 GT}

/-- The proofs in a variable are what the ledger says. -/
def ProofsOk (e : G1 →ₗ[F] G2 →ₗ[F] GT) (crs : CRS G1 G2 GT) (T1 : Nat → Com G1 × List F) (T2 : Nat → Com G2 × List F) (n : Nat)
    (pfs : List (EquProof F G1 G2)) : Origin F G1 G2 GT → Prop
  | .received p => pfs = p
  | .made c xs ys => (∀ it ∈ xs, it.id < n) ∧ (∀ it ∈ ys, it.id < n) ∧ ∃ pf, pfs = [pf] ∧
      MadeOk e crs c (xs.map (·.val)) (ys.map (·.val)) (xs.map fun it => (T1 it.id).1) (ys.map fun it => (T2 it.id).1) pf

/-- The ledger describes the variables of the program. -/
structure Good (e : G1 →ₗ[F] G2 →ₗ[F] GT) (crs : CRS G1 G2 GT) (T1 : Nat → Com G1 × List F) (T2 : Nat → Com G2 × List F)
    (L : Ledger F G1 G2 GT) (s : Store ρ F G1 G2) : Prop where
  left : ∀ i, Side crs.u crs.g1_gen T1 L.next (L.left i) (s.left i)
  right : ∀ i, Side crs.v crs.g2_gen T2 L.next (L.right i) (s.right i)
  proofs : ∀ k, ProofsOk e crs T1 T2 L.next (s.proofs k) (L.proofs k)

variable {T1 T1' : Nat → Com G1 × List F} {T2 T2' : Nat → Com G2 × List F} {n n' : Nat}

theorem ProofsOk.mono {o : Origin F G1 G2 GT} {pfs : List (EquProof F G1 G2)} (h : ProofsOk e crs T1 T2 n pfs o)
    (h1 : ∀ i < n, T1' i = T1 i) (h2 : ∀ i < n, T2' i = T2 i) (hn : n ≤ n') : ProofsOk e crs T1' T2' n' pfs o := by
  cases o with
  | received p => exact h
  | made c xs ys =>
    obtain ⟨a, b, pf, hpf, m⟩ := h
    refine ⟨fun it hit => (a it hit).trans_le hn, fun it hit => (b it hit).trans_le hn, pf, hpf, ?_⟩
    have e1 : (xs.map fun it => (T1' it.id).1) = xs.map fun it => (T1 it.id).1 :=
      List.map_congr_left fun it hit => by rw [h1 _ (a it hit)]
    have e2 : (ys.map fun it => (T2' it.id).1) = ys.map fun it => (T2 it.id).1 :=
      List.map_congr_left fun it hit => by rw [h2 _ (b it hit)]
    rw [e1, e2]
    exact m

theorem forall_setAt {α β : Type} {P : α → β → Prop} {f : Nat → α} {g : Nat → β} (h : ∀ i, P (f i) (g i)) (k : Nat) {a : α} {b : β}
    (hab : P a b) (i : Nat) : P (setAt f k a i) (setAt g k b i) := by
  unfold setAt
  split
  · exact hab
  · exact h i

theorem Good.init (rng : ρ) : Good e crs (fun _ => (0, [])) (fun _ => (0, [])) (Ledger.init : Ledger F G1 G2 GT) (Store.init rng) :=
  ⟨fun _ => Side.nil, fun _ => Side.nil, fun _ => rfl⟩

theorem reload_commit {G : Type} {cf : Codec F} {c : Codec G} (hf : cf.Lawful) (h : c.Lawful) (vf : ∀ a, cf.Valid a)
    (v : ∀ a, c.Valid a) (m : Compress) (w : Validate) (x : Commit F G) (hx : x.Fits) :
    (Commit.codec cf c).reload m w x = .ok x := by
  have := C41_commit hf h m w x hx (fun _ => ⟨fun c _ => ⟨v _, v _⟩, fun r _ a _ => vf a⟩) []
  rw [List.append_nil] at this
  rw [Codec.reload, this]
  rfl

theorem reload_proofs {cd : Codecs F G1 G2} (h : cd.Lawful) (m : Compress) (w : Validate) (l : List (EquProof F G1 G2))
    (hl : ∀ pf ∈ l, pf.Fits) : (EquProof.codec cd.f cd.g1 cd.g2).reloadAll m w l = .ok l := by
  induction l with
  | nil => rfl
  | cons x l ih =>
    have := C41_proof h.f h.g1 h.g2 m w x (hl x (by simp))
      (fun _ => ⟨fun c _ => ⟨h.valid2 _, h.valid2 _⟩, fun c _ => ⟨h.valid1 _, h.valid1 _⟩, fun r _ a _ => h.validF a⟩) []
    rw [List.append_nil] at this
    rw [Codec.reloadAll, Codec.reload, this, ih fun pf hpf => hl pf (by simp [hpf])]
    rfl

theorem setAt_self {α : Type} (f : Nat → α) (i : Nat) : setAt f i (f i) = f := by
  funext j
  unfold setAt
  split
  · next h => rw [h]
  · rfl

theorem append_run {G : Type} (a b : Commit F G) (ha : a.coms.length = a.rand.length) (hb : b.coms.length = b.rand.length) :
    Commit.appendU.run (a, b) = (.ok (), (⟨a.coms ++ b.coms, a.rand ++ b.rand⟩, ⟨[], []⟩)) := by
  unfold Commit.appendU
  simp [Unw.run_get_bind, Unw.run_set_bind, Unw.run_set, Unw.run_ok_bind, assertEq, ha, hb]

theorem Good.step (he : PrimeGroups e) (hc : GeneratedCrs e crs) (h0 : crs.NonzeroGens) {cd : Codecs F G1 G2} (hcd : cd.Lawful)
    {L : Ledger F G1 G2 GT} {s : Store ρ F G1 G2} (h : Good e crs T1 T2 L s) (hm : L.InMemory) (op : ApiCall F G1 G2 GT) :
    L.Allows e crs op (s.step e crs cd op).1 ∧ ∃ T1' T2', Good e crs T1' T2' (L.step op) (s.step e crs cd op).2 := by
  have hu := hc.length_u
  have hv := hc.length_v
  cases op with
  | commitL i v =>
    obtain ⟨c, r, hr, ho⟩ := v.commitL_ok hu s.rng
    obtain ⟨T', hT, hS⟩ := side_new T1 L.next _ _ _ ho
    simp only [Store.step, hr, Ledger.Allows, Ledger.step, true_and]
    exact ⟨T', T2, forall_setAt (P := fun a b => Side crs.u crs.g1_gen T' (L.next + 1) a b)
        (fun j => (h.left j).mono hT (by omega)) i hS,
      fun j => (h.right j).mono (fun _ _ => rfl) (by simp), fun k => (h.proofs k).mono hT (fun _ _ => rfl) (by simp)⟩
  | commitR i v =>
    obtain ⟨c, r, hr, ho⟩ := v.commitR_ok hv s.rng
    obtain ⟨T', hT, hS⟩ := side_new T2 L.next _ _ _ ho
    simp only [Store.step, hr, Ledger.Allows, Ledger.step, true_and]
    exact ⟨T1, T', fun j => (h.left j).mono (fun _ _ => rfl) (by simp),
      forall_setAt (P := fun a b => Side crs.v crs.g2_gen T' (L.next + 1) a b)
        (fun j => (h.right j).mono hT (by omega)) i hS,
      fun k => (h.proofs k).mono (fun _ _ => rfl) hT (by simp)⟩
  | batchL i b =>
    by_cases hb : b.vals = []
    · obtain ⟨p, r, hr⟩ := (b.commitL_ok hu s.rng).2 hb
      simp only [Store.step, hr, Ledger.Allows, Ledger.step, if_pos hb]
      exact ⟨⟨fun _ => trivial, fun h => absurd hb h⟩, T1, T2, h.left, h.right, h.proofs⟩
    · obtain ⟨c, r, hr, ho⟩ := (b.commitL_ok hu s.rng).1 hb
      obtain ⟨T', hT, hS⟩ := side_new T1 L.next _ _ _ ho
      simp only [Store.step, hr, Ledger.Allows, Ledger.step, if_neg hb]
      exact ⟨⟨fun h => absurd h hb, fun _ => trivial⟩, T', T2,
        forall_setAt (P := fun x y => Side crs.u crs.g1_gen T' (L.next + b.vals.length) x y)
          (fun j => (h.left j).mono hT (by omega)) i hS,
        fun j => (h.right j).mono (fun _ _ => rfl) (by simp), fun k => (h.proofs k).mono hT (fun _ _ => rfl) (by simp)⟩
  | batchR i b =>
    by_cases hb : b.vals = []
    · obtain ⟨p, r, hr⟩ := (b.commitR_ok hv s.rng).2 hb
      simp only [Store.step, hr, Ledger.Allows, Ledger.step, if_pos hb]
      exact ⟨⟨fun _ => trivial, fun h => absurd hb h⟩, T1, T2, h.left, h.right, h.proofs⟩
    · obtain ⟨c, r, hr, ho⟩ := (b.commitR_ok hv s.rng).1 hb
      obtain ⟨T', hT, hS⟩ := side_new T2 L.next _ _ _ ho
      simp only [Store.step, hr, Ledger.Allows, Ledger.step, if_neg hb]
      exact ⟨⟨fun h => absurd h hb, fun _ => trivial⟩, T1, T',
        fun j => (h.left j).mono (fun _ _ => rfl) (by simp),
        forall_setAt (P := fun x y => Side crs.v crs.g2_gen T' (L.next + b.vals.length) x y)
          (fun j => (h.right j).mono hT (by omega)) i hS,
        fun k => (h.proofs k).mono (fun _ _ => rfl) hT (by simp)⟩
  | appendL i j =>
    by_cases hij : i = j
    · simp only [Store.step, Ledger.Allows, Ledger.step, if_pos hij, true_and]
      exact ⟨T1, T2, h⟩
    · have hi := (h.left i).lengths
      have hj := (h.left j).lengths
      simp only [Store.step, append_run _ _ (hi.1.trans hi.2.symm) (hj.1.trans hj.2.symm), Ledger.Allows, Ledger.step, if_neg hij, true_and]
      exact ⟨T1, T2, forall_setAt (P := fun x y => Side crs.u crs.g1_gen T1 L.next x y)
        (forall_setAt (P := fun x y => Side crs.u crs.g1_gen T1 L.next x y) h.left i ((h.left i).append (h.left j))) j Side.nil,
        h.right, h.proofs⟩
  | appendR i j =>
    by_cases hij : i = j
    · simp only [Store.step, Ledger.Allows, Ledger.step, if_pos hij, true_and]
      exact ⟨T1, T2, h⟩
    · have hi := (h.right i).lengths
      have hj := (h.right j).lengths
      simp only [Store.step, append_run _ _ (hi.1.trans hi.2.symm) (hj.1.trans hj.2.symm), Ledger.Allows, Ledger.step, if_neg hij, true_and]
      exact ⟨T1, T2, h.left, forall_setAt (P := fun x y => Side crs.v crs.g2_gen T2 L.next x y)
        (forall_setAt (P := fun x y => Side crs.v crs.g2_gen T2 L.next x y) h.right i ((h.right i).append (h.right j))) j Side.nil,
        h.proofs⟩
  | cloneL i j =>
    simp only [Store.step, Ledger.Allows, Ledger.step, true_and]
    exact ⟨T1, T2, forall_setAt (P := fun x y => Side crs.u crs.g1_gen T1 L.next x y) h.left i (h.left j), h.right, h.proofs⟩
  | cloneR i j =>
    simp only [Store.step, Ledger.Allows, Ledger.step, true_and]
    exact ⟨T1, T2, h.left, forall_setAt (P := fun x y => Side crs.v crs.g2_gen T2 L.next x y) h.right i (h.right j), h.proofs⟩
  | reloadL i m w =>
    simp only [Store.step, reload_commit hcd.f hcd.g1 hcd.validF hcd.valid1 m w _ ((h.left i).fits (hm.1 i)), setAt_self, Ledger.Allows,
      Ledger.step, true_and]
    exact ⟨T1, T2, h⟩
  | reloadR i m w =>
    simp only [Store.step, reload_commit hcd.f hcd.g2 hcd.validF hcd.valid2 m w _ ((h.right i).fits (hm.2.1 i)), setAt_self, Ledger.Allows,
      Ledger.step, true_and]
    exact ⟨T1, T2, h⟩
  | reloadP k m w =>
    have hf : ∀ pf ∈ s.proofs k, pf.Fits := by
      have := h.proofs k
      rcases ho : L.proofs k with p | ⟨c, xs, ys⟩
      · rw [ho] at this
        intro pf hpf
        rw [show s.proofs k = p from this] at hpf
        exact hm.2.2 k p ho pf hpf
      · rw [ho] at this
        obtain ⟨-, -, pf, hpf, m⟩ := this
        rw [hpf]
        intro pf' h'
        rw [List.mem_singleton.mp h']
        exact m.fits
    simp only [Store.step, reload_proofs hcd m w _ hf, setAt_self, Ledger.Allows, Ledger.step, true_and]
    exact ⟨T1, T2, h⟩
  | prove k i j c sch =>
    have hp := Claim.prove_ok hc h0 (h.left i) (h.right j) c sch s.rng
    by_cases hf : c.Fits (L.left i) (L.right j)
    · obtain ⟨pf, r, hr, m⟩ := hp.1 hf
      simp only [Store.step, hr, Ledger.Allows, Ledger.step, if_pos hf]
      refine ⟨⟨fun _ => trivial, fun h => absurd hf h⟩, T1, T2, h.left, h.right,
        forall_setAt (P := fun x y => ProofsOk e crs T1 T2 L.next x y) h.proofs k
          ⟨fun it hit => ((h.left i).items it hit).1, fun it hit => ((h.right j).items it hit).1, pf, rfl, ?_⟩⟩
      rw [← (h.left i).coms, ← (h.right j).coms]
      exact m
    · obtain ⟨p, r, hr⟩ := hp.2 hf
      simp only [Store.step, hr, Ledger.Allows, Ledger.step, if_neg hf]
      exact ⟨⟨fun h => absurd h hf, fun _ => trivial⟩, T1, T2, h.left, h.right, h.proofs⟩
  | commitAndProve k i j c sch =>
    have hp := Claim.commitAndProve_ok hc h0 T1 T2 L.next c sch s.rng
    by_cases hw : c.WellFormed
    · obtain ⟨cp, r, T1', T2', pf, hr, a1, a2, b1, b2, hpf, m⟩ := hp.1 hw
      simp only [Store.step, hr, Ledger.Allows, Ledger.step, if_pos hw]
      refine ⟨⟨fun _ => trivial, fun h => absurd hw h⟩, T1', T2',
        forall_setAt (P := fun x y => Side crs.u crs.g1_gen T1' (L.next + c.xs.vals.length + c.ys.vals.length) x y)
          (fun j => (h.left j).mono a1 (by omega)) i b1,
        forall_setAt (P := fun x y => Side crs.v crs.g2_gen T2' (L.next + c.xs.vals.length + c.ys.vals.length) x y)
          (fun j => (h.right j).mono a2 (by omega)) j b2,
        forall_setAt (P := fun x y => ProofsOk e crs T1' T2' (L.next + c.xs.vals.length + c.ys.vals.length) x y)
          (fun k => (h.proofs k).mono a1 a2 (by omega)) k
          ⟨fun it hit => (b1.items it hit).1, fun it hit => (b2.items it hit).1, pf, hpf, ?_⟩⟩
      rw [← b1.coms, ← b2.coms, numbered_vals, numbered_vals]
      exact m
    · obtain ⟨p, r, hr⟩ := hp.2 hw
      simp only [Store.step, hr, Ledger.Allows, Ledger.step, if_neg hw]
      exact ⟨⟨fun h => absurd h hw, fun _ => trivial⟩, T1, T2, h.left, h.right, h.proofs⟩
  | receive k pfs =>
    simp only [Store.step, Ledger.Allows, Ledger.step, true_and]
    exact ⟨T1, T2, h.left, h.right, forall_setAt (P := fun x y => ProofsOk e crs T1 T2 L.next x y) h.proofs k rfl⟩
  | verify k i j q sch =>
    have hdom := AnyEqu.check_dom (e := e) hu hv q sch ⟨s.left i, s.right j, s.proofs k⟩
    have hshape : (s.proofs k).map (fun pf => (pf.equ_type, pf.pi.length, pf.theta.length)) = (L.proofs k).shape := by
      have := h.proofs k
      rcases ho : L.proofs k with p | ⟨c, xs, ys⟩
      · rw [ho] at this
        rw [show s.proofs k = p from this]
        rfl
      · rw [ho] at this
        obtain ⟨-, -, pf, hpf, m⟩ := this
        rw [hpf, Origin.shape, List.map_cons, List.map_nil, m.shape]
    have hD : L.Decides k i j q ↔ (q.check e sch ⟨s.left i, s.right j, s.proofs k⟩ crs).Ok := by
      rw [hdom, Ledger.Decides, (h.left i).lengths.1, (h.right j).lengths.1, ← hshape]
      refine and_congr_left fun _ => ⟨?_, ?_⟩
      · rintro ⟨p, t, h1, h2⟩
        obtain ⟨pf, hpf, h3⟩ := List.map_eq_singleton_iff.mp h1
        simp only [Prod.mk.injEq] at h3
        obtain ⟨h3, rfl, rfl⟩ := h3
        exact ⟨pf, hpf, h3, h2⟩
      · rintro ⟨pf, h1, h2, h3⟩
        exact ⟨pf.pi.length, pf.theta.length, by rw [show s.proofs k = [pf] from h1, ← h2]; rfl, h3⟩
    rcases hr : q.check e sch ⟨s.left i, s.right j, s.proofs k⟩ crs with p | b
    · simp only [Store.step, hr, Ledger.Allows, Ledger.step]
      have hn : ¬ L.Decides k i j q := by
        rw [hD, ← panics_iff_not_ok]
        exact ⟨p, hr⟩
      exact ⟨⟨fun _ => trivial, fun h => absurd h hn⟩, T1, T2, h⟩
    · simp only [Store.step, hr, Ledger.Allows, Ledger.step]
      refine ⟨⟨fun hn => absurd (hD.mpr ⟨b, hr⟩) hn, fun _ => ⟨b, rfl, ?_, ?_⟩⟩, T1, T2, h⟩
      · rintro rfl
        exact AnyEqu.check_sound he hc h0 q sch _ (h.left i).allOpen (h.right j).allOpen hr
      · rintro ⟨c, h1, h2, h3, h4⟩ hs
        have := h.proofs k
        rw [h1] at this
        obtain ⟨-, -, pf, hpf, m⟩ := this
        subst h2
        have := m.honest h3 h4 sch ⟨s.left i, s.right j, s.proofs k⟩ (h.left i).coms (h.right j).coms hpf hs
        rw [this] at hr
        exact (Except.ok.inj hr).symm

theorem Good.run (he : PrimeGroups e) (hc : GeneratedCrs e crs) (h0 : crs.NonzeroGens) {cd : Codecs F G1 G2} (hcd : cd.Lawful)
    {L : Ledger F G1 G2 GT} {s : Store ρ F G1 G2} (h : Good e crs T1 T2 L s) (ops : List (ApiCall F G1 G2 GT)) :
    L.Conforms e crs ops (s.run e crs cd ops) := by
  induction ops generalizing L s T1 T2 with
  | nil => rfl
  | cons op ops ih =>
    intro hm
    obtain ⟨h1, T1', T2', h2⟩ := h.step he hc h0 hcd hm op
    exact ⟨h1, ih h2⟩

end invariant

end GS
