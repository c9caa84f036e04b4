import Verif.Spec.AdaptiveZk
import Verif.Lemmas.Adaptive

/-! # The library and the simulator, side by side -/

set_option linter.unusedSectionVars false
set_option linter.unusedVariables false

namespace GS.Adaptive
variable {F G1 G2 GT : Type} [Field F] [AddCommGroup G1] [Module F G1] [AddCommGroup G2] [Module F G2]
  [AddCommGroup GT] [Module F GT]

/-! ### Hiding -/

theorem alike_hide {G : Type} [Zero G] (v : Val F G) : v.Alike v.hide := by cases v <;> trivial

theorem batch_alike_hide {G : Type} [Zero G] (b : Batch F G) : b.Alike b.hide := by
  cases b <;> exact List.length_replicate

theorem batch_hide_vals {G : Type} [Zero G] (b : Batch F G) : b.hide.vals = b.vals.map Val.hide := by
  cases b with
  | group xs => simp [Batch.hide, Batch.vals, Function.comp_def, Val.hide]
  | scalar xs => simp [Batch.hide, Batch.vals, Function.comp_def, Val.hide]

theorem claim_hide_xs (c : Claim F G1 G2 GT) : c.hide.xs = c.xs.hide := by cases c <;> rfl

theorem claim_hide_ys (c : Claim F G1 G2 GT) : c.hide.ys = c.ys.hide := by cases c <;> rfl

theorem claim_hide_equ (c : Claim F G1 G2 GT) : c.hide.equ = c.equ := by cases c <;> rfl

theorem claim_alike_hide (c : Claim F G1 G2 GT) : c.Alike c.hide := by
  refine ⟨(claim_hide_equ c).symm, ?_, ?_⟩
  · rw [claim_hide_xs]; exact batch_alike_hide _
  · rw [claim_hide_ys]; exact batch_alike_hide _

theorem twins_hide (op : ApiCall F G1 G2 GT) : op.Twins op.hide := by
  cases op <;> simp only [ApiCall.hide, ApiCall.Twins, true_and, and_self, alike_hide, batch_alike_hide, claim_alike_hide]

theorem val_hide_eq {G : Type} [Zero G] {v v' : Val F G} (h : v.Alike v') : v.hide = v'.hide := by
  cases v <;> cases v' <;> first | exact h.elim | rfl

theorem batch_hide_eq {G : Type} [Zero G] {b b' : Batch F G} (h : b.Alike b') : b.hide = b'.hide := by
  cases b <;> cases b' <;> first | exact h.elim | (simp only [Batch.hide]; rw [show _ = _ from h])

theorem claim_hide_eq {c c' : Claim F G1 G2 GT} (h : c.Alike c') : c.hide = c'.hide := by
  obtain ⟨h1, h2, h3⟩ := h
  cases c <;> cases c' <;> simp only [Claim.equ, AnyEqu.ppe.injEq, AnyEqu.msmeg1.injEq, AnyEqu.msmeg2.injEq, AnyEqu.quad.injEq,
    reduceCtorEq] at h1 <;> subst h1 <;> simp only [Claim.hide] <;> rw [show _ = _ from h2, show _ = _ from h3]

theorem hide_eq {op op' : ApiCall F G1 G2 GT} (h : op.Twins op') : op.hide = op'.hide := by
  cases op <;> cases op' <;> first | exact h.elim | skip
  all_goals simp only [ApiCall.Twins] at h
  all_goals simp only [ApiCall.hide]
  all_goals (try rw [h.1])
  all_goals (try rw [val_hide_eq h.2])
  all_goals (try rw [batch_hide_eq h.2])
  all_goals (try rw [h.2.1])
  all_goals (try rw [h.2.2.1])
  all_goals (try rw [claim_hide_eq h.2.2.2])
  all_goals (try rw [h.2])
  all_goals (try rw [h.2.2])
  all_goals (try rw [h.2.2.2.1, h.2.2.2.2])

/-- The item without its value. -/
def Item.hide {G : Type} [Zero G] (it : Item F G) : Item F G := ⟨it.id, it.val.hide⟩

/-- The origin without the secrets. -/
def Origin.hide : Origin F G1 G2 GT → Origin F G1 G2 GT
  | .received pfs => .received pfs
  | .made c xs ys => .made c.hide (xs.map Item.hide) (ys.map Item.hide)

/-- The ledger without the secrets. -/
def Ledger.hide (L : Ledger F G1 G2 GT) : Ledger F G1 G2 GT :=
  ⟨L.next, fun i => (L.left i).map Item.hide, fun i => (L.right i).map Item.hide, fun k => Origin.hide (L.proofs k)⟩

theorem map_hide_val {G : Type} [Zero G] (l : List (Item F G)) :
    (l.map Item.hide).map (·.val) = (l.map (·.val)).map Val.hide := by
  simp [Function.comp_def, Item.hide]

theorem numbered_hide {G : Type} [Zero G] (n : Nat) (vs : List (Val F G)) :
    (numbered n vs).map Item.hide = numbered n (vs.map Val.hide) := by
  induction vs generalizing n with
  | nil => rfl
  | cons v vs ih => simp [numbered, ih, Item.hide]

theorem setAt_map {α β : Type} (f : Nat → α) (k : Nat) (a : α) (g : α → β) :
    (fun i => g (setAt f k a i)) = setAt (fun i => g (f i)) k (g a) := by
  funext i
  unfold setAt
  split <;> rfl

theorem hidden_kinds {G : Type} [Zero G] (l : List (Item F G)) : List.Forall₂ Val.Alike (l.map (·.val)) ((l.map Item.hide).map (·.val)) := by
  rw [map_hide_val, List.forall₂_map_right_iff]
  exact List.forall₂_same.mpr fun v _ => alike_hide v

theorem fits_hide (c : Claim F G1 G2 GT) (xs : List (Item F G1)) (ys : List (Item F G2)) :
    c.hide.Fits (xs.map Item.hide) (ys.map Item.hide) ↔ c.Fits xs ys :=
  (fits_iff (claim_alike_hide c) (hidden_kinds xs) (hidden_kinds ys)).symm

theorem wellFormed_hide (c : Claim F G1 G2 GT) : c.hide.WellFormed ↔ c.WellFormed := (wellFormed_iff (claim_alike_hide c)).symm

theorem init_hide : Ledger.hide (Ledger.init : Ledger F G1 G2 GT) = Ledger.init := rfl

theorem step_hide (L : Ledger F G1 G2 GT) (op : ApiCall F G1 G2 GT) : Ledger.hide (L.step op) = (Ledger.hide L).step op.hide := by
  cases op with
  | commitL i v => simp only [Ledger.step, ApiCall.hide, Ledger.hide, setAt_map, numbered_hide]; rfl
  | commitR i v => simp only [Ledger.step, ApiCall.hide, Ledger.hide, setAt_map, numbered_hide]; rfl
  | batchL i b =>
    by_cases h : b.vals = []
    · simp only [Ledger.step, ApiCall.hide, Ledger.hide, h, if_true, batch_hide_vals, List.map_nil]
    · simp only [Ledger.step, ApiCall.hide, Ledger.hide, h, if_false, batch_hide_vals, List.map_eq_nil_iff, List.length_map, setAt_map, numbered_hide]
  | batchR i b =>
    by_cases h : b.vals = []
    · simp only [Ledger.step, ApiCall.hide, Ledger.hide, h, if_true, batch_hide_vals, List.map_nil]
    · simp only [Ledger.step, ApiCall.hide, Ledger.hide, h, if_false, batch_hide_vals, List.map_eq_nil_iff, List.length_map, setAt_map, numbered_hide]
  | appendL i j =>
    by_cases h : i = j
    · simp only [Ledger.step, ApiCall.hide, Ledger.hide, h, if_true]
    · simp only [Ledger.step, ApiCall.hide, Ledger.hide, h, if_false, setAt_map, List.map_append, List.map_nil]
  | appendR i j =>
    by_cases h : i = j
    · simp only [Ledger.step, ApiCall.hide, Ledger.hide, h, if_true]
    · simp only [Ledger.step, ApiCall.hide, Ledger.hide, h, if_false, setAt_map, List.map_append, List.map_nil]
  | cloneL i j => simp only [Ledger.step, ApiCall.hide, Ledger.hide, setAt_map]
  | cloneR i j => simp only [Ledger.step, ApiCall.hide, Ledger.hide, setAt_map]
  | reloadL i m w => rfl
  | reloadR i m w => rfl
  | reloadP k m w => rfl
  | prove k i j c sch =>
    have hf := fits_hide c (L.left i) (L.right j)
    by_cases h : c.Fits (L.left i) (L.right j)
    · simp only [Ledger.step, ApiCall.hide, Ledger.hide, h, hf.mpr h, if_true, setAt_map]; rfl
    · simp only [Ledger.step, ApiCall.hide, Ledger.hide, h, hf.not.mpr h, if_false]
  | commitAndProve k i j c sch =>
    have hf := wellFormed_hide c
    by_cases h : c.WellFormed
    · simp only [Ledger.step, ApiCall.hide, Ledger.hide, h, hf.mpr h, if_true, setAt_map, Origin.hide.eq_2, numbered_hide, claim_hide_xs, claim_hide_ys,
        batch_hide_vals, List.length_map]
    · simp only [Ledger.step, ApiCall.hide, Ledger.hide, h, hf.not.mpr h, if_false]
  | receive k pfs => simp only [Ledger.step, ApiCall.hide, Ledger.hide, setAt_map]; rfl
  | verify k i j q sch => rfl

/-! ### One call -/

variable {e : G1 →ₗ[F] G2 →ₗ[F] GT} {crs : CRS G1 G2 GT} {a1 a2 t1 t2 : F} {u0 u1 : Com G1} {v0 v1 : Com G2}

theorem simulate_fits (c : Claim F G1 G2 GT) (sch : Nat → Scheduler) (cx : Commit F G1) (cy : Commit F G2) (s : List F)
    (pf : EquProof F G1 G2) (r : List F) (h : c.simulate sch t1 t2 cx cy crs s = .ok (pf, r)) : pf.Fits := by
  have small : ∀ {p : List (Com G2)} {t : List (Com G1)} {ty : EquType}, p.length ≤ 2 → t.length ≤ 2 →
      (⟨p, t, ty, []⟩ : EquProof F G1 G2).Fits := fun hp ht =>
    ⟨by unfold Fits64; simp only; omega, by unfold Fits64; simp only; omega, fitsMat_small _ (by simp) (by simp)⟩
  cases c with
  | ppe q x y =>
    refine prove_fits (crs := crs) (.ppe q x y) sch cx cy s pf r ?_
    rw [Claim.prove, PPE.prove_forget]
    exact h
  | msmeg1 q x y =>
    simp only [Claim.simulate, MSMEG1.simulateProof] at h
    obtain ⟨_, -, h⟩ := bind_ok_iff.mp h
    obtain ⟨_, -, h⟩ := bind_ok_iff.mp h
    obtain ⟨_, -, h⟩ := bind_ok_iff.mp h
    cases h
    exact small (by simp) (by simp)
  | msmeg2 q x y =>
    simp only [Claim.simulate, MSMEG2.simulateProof] at h
    obtain ⟨_, -, h⟩ := bind_ok_iff.mp h
    obtain ⟨_, -, h⟩ := bind_ok_iff.mp h
    obtain ⟨_, -, h⟩ := bind_ok_iff.mp h
    cases h
    exact small (by simp) (by simp)
  | quad q x y =>
    simp only [Claim.simulate, QuadEqu.simulateProof] at h
    obtain ⟨_, -, h⟩ := bind_ok_iff.mp h
    obtain ⟨_, -, h⟩ := bind_ok_iff.mp h
    cases h
    exact small (by simp) (by simp)

theorem simulate_coupled (he : PrimeGroups e) (hu : crs.u = [u0, u1]) (hv : crs.v = [v0, v1])
    (ku : HidingKey crs.g1_gen a1 t1 u0 u1) (kv : HidingKey crs.g2_gen a2 t2 v0 v1) {c : Claim F G1 G2 GT}
    (hw : c.WellFormed) (h : c.Holds e) (hs : c.equ.Simulatable) {cx cx' : Commit F G1} {cy cy' : Commit F G2}
    (hx : SameSide crs.u crs.g1_gen cx cx' c.xs.vals c.hide.xs.vals) (hy : SameSide crs.v crs.g2_gen cy cy' c.ys.vals c.hide.ys.vals)
    (sch sch' : Nat → Scheduler) :
    Coupled (F := F) c.equ.draws (c.prove sch cx cy crs).forget (c.hide.simulate sch' t1 t2 cx' cy' crs) SameProof := by
  refine Coupled.keep ?_ (prove_fits _ _ _ _) (simulate_fits _ _ _ _)
  obtain ⟨w1, w2, w3⟩ := hw
  cases c <;> simp only [Claim.xs, Claim.ys, Claim.hide, Batch.vals, Claim.equ, AnyEqu.Dims, List.length_map, ne_eq, List.map_eq_nil_iff] at hx hy w1 w2 w3
  · refine (PPE.prove_coupled he hu hv ku kv w1 w2 w3 List.length_replicate List.length_replicate h (PPE.holds_zeros w3 hs) hx.coms hy.coms
      (opens_of_allOpen_group hu hx.opens) (opens_of_allOpen_group hv hy.opens) (opens_of_allOpen_group hu hx.opens')
      (opens_of_allOpen_group hv hy.opens') sch sch').congr rfl (funext fun s => ?_) rfl fun _ _ h => h
    rw [Claim.prove, PPE.prove_forget]
  · refine (MSMEG1.simulate_coupled he hu hv ku kv w1 w2 w3 h hx.coms hy.coms
      (opens_of_allOpen_group hu hx.opens) (opens_of_allOpen_scalar hv hy.opens) (opens_of_allOpen_group hu hx.opens')
      (opens_of_allOpen_scalar hv hy.opens') sch).congr rfl (funext fun s => ?_) rfl fun _ _ h => h
    rw [Claim.prove, MSMEG1.prove_forget]
  · refine (MSMEG2.simulate_coupled he hu hv ku kv w1 w2 w3 h hx.coms hy.coms
      (opens_of_allOpen_scalar hu hx.opens) (opens_of_allOpen_group hv hy.opens) (opens_of_allOpen_scalar hu hx.opens')
      (opens_of_allOpen_group hv hy.opens') sch).congr rfl (funext fun s => ?_) rfl fun _ _ h => h
    rw [Claim.prove, MSMEG2.prove_forget]
  · refine (QuadEqu.simulate_coupled he hu hv ku kv w1 w2 w3 h hx.coms hy.coms
      (opens_of_allOpen_scalar hu hx.opens) (opens_of_allOpen_scalar hv hy.opens) (opens_of_allOpen_scalar hu hx.opens')
      (opens_of_allOpen_scalar hv hy.opens') sch).congr rfl (funext fun s => ?_) rfl fun _ _ h => h
    rw [Claim.prove, QuadEqu.prove_forget]

theorem simulateAll_eq (c : Claim F G1 G2 GT) (sch : Nat → Scheduler) (s : List F) :
    c.hide.simulateAll sch t1 t2 crs s = (c.hide.xs.commitL crs).forget s >>= fun r => (c.hide.ys.commitR crs).forget r.2 >>= fun r' =>
      c.hide.simulate sch t1 t2 r.1 r'.1 crs r'.2 >>= fun r'' => .ok (⟨r.1, r'.1, [r''.1]⟩, r''.2) := by
  cases c with
  | ppe q x y =>
    have := cap_forget (crs := crs) (Claim.ppe q x y).hide sch s
    simp only [Claim.hide, Claim.commitAndProve, PPE.cap_forget, Claim.prove, PPE.prove_forget] at this
    exact this
  | msmeg1 q x y =>
    simp only [Claim.hide, Claim.simulateAll, MSMEG1.simulate, Claim.xs, Claim.ys, Batch.commitL, Batch.commitR, batchCommitG1_forget,
      batchCommitScalarToB2_forget, List.length_replicate]
    rfl
  | msmeg2 q x y =>
    simp only [Claim.hide, Claim.simulateAll, MSMEG2.simulate, Claim.xs, Claim.ys, Batch.commitL, Batch.commitR, batchCommitG2_forget,
      batchCommitScalarToB1_forget, List.length_replicate]
    rfl
  | quad q x y =>
    simp only [Claim.hide, Claim.simulateAll, QuadEqu.simulate, Claim.xs, Claim.ys, Batch.commitL, Batch.commitR, batchCommitScalarToB1_forget,
      batchCommitScalarToB2_forget, List.length_replicate]
    rfl

theorem simulateAll_coupled (he : PrimeGroups e) (hu : crs.u = [u0, u1]) (hv : crs.v = [v0, v1])
    (ku : HidingKey crs.g1_gen a1 t1 u0 u1) (kv : HidingKey crs.g2_gen a2 t2 v0 v1) {c : Claim F G1 G2 GT}
    (hw : c.WellFormed) (h : c.Holds e) (hs : c.equ.Simulatable) (sch sch' : Nat → Scheduler) :
    Coupled (F := F) (c.xs.draws + (c.ys.draws + c.equ.draws)) (c.commitAndProve sch crs).forget (c.hide.simulateAll sch' t1 t2 crs)
      (SameCap crs c c.hide) := by
  have ha := claim_alike_hide c
  refine ((batchL_coupled hu ku ha.2.1 hw.1).bind fun cx cx' hx => (batchR_coupled hv kv ha.2.2 hw.2.1).bind fun cy cy' hy =>
    (simulate_coupled he hu hv ku kv hw h hs hx hy sch sch').map (f := fun pf => CProof.mk cx cy [pf])
      (f' := fun pf => CProof.mk cx' cy' [pf]) (Rel' := SameCap crs c c.hide) fun pf pf' hp =>
        ⟨hx, hy, congrArg (fun p => [p]) hp.1, fun p h => List.mem_singleton.mp h ▸ hp.2.1, fun p h => List.mem_singleton.mp h ▸ hp.2.2⟩).congr rfl
    (funext fun s => (cap_forget c sch s).symm) (funext fun s => (simulateAll_eq c sch' s).symm) fun _ _ h => h

theorem prove_completes (hu : crs.u.length = 2) (hv : crs.v.length = 2) {xs : List (Item F G1)} {ys : List (Item F G2)}
    {cx : Commit F G1} {cy : Commit F G2}
    (hx : AllOpen crs.u crs.g1_gen cx.coms cx.rand (xs.map (·.val))) (hy : AllOpen crs.v crs.g2_gen cy.coms cy.rand (ys.map (·.val)))
    (c : Claim F G1 G2 GT) (sch : Nat → Scheduler) (s : List F) (hf : c.Fits xs ys) :
    ∃ pf s', (c.prove sch cx cy crs).run s = (.ok pf, s') := by
  suffices h : ((c.prove sch cx cy crs).forget s).Ok by
    obtain ⟨⟨pf, s'⟩, h⟩ := h
    exact ⟨pf, s', Unw.forget_ok.mp h⟩
  obtain ⟨⟨w1, w2, w3⟩, ⟨l1, k1⟩, l2, k2⟩ := hf
  have hu2 : 2 ≤ crs.u.length := hu.ge
  have hv2 : 2 ≤ crs.v.length := hv.ge
  cases c <;>
    simp only [Claim.xs, Claim.ys, Claim.equ, AnyEqu.Dims, Batch.vals, ne_eq, List.map_eq_nil_iff, List.length_map] at w1 w2 w3 l1 l2
  · rw [Claim.prove, PPE.prove_forget]
    exact (C36_ppe sch crs _ cx cy _ _ _).1.mpr ⟨w1, w2, (rect_group_of_allOpen hx _).mpr ⟨l1, k1⟩,
      (rect_group_of_allOpen hy _).mpr ⟨l2, k2⟩, w3, hu, hv⟩
  · rw [Claim.prove, MSMEG1.prove_forget]
    exact (C36_msmeg1 sch crs _ cx cy _ _ _).1.mpr ⟨w1, w2, (rect_group_of_allOpen hx _).mpr ⟨l1, k1⟩,
      (rect_scalar_of_allOpen hy _).mpr ⟨l2, k2⟩, w3, hu, hv2⟩
  · rw [Claim.prove, MSMEG2.prove_forget]
    exact (C36_msmeg2 sch crs _ cx cy _ _ _).1.mpr ⟨w1, w2, (rect_scalar_of_allOpen hx _).mpr ⟨l1, k1⟩,
      (rect_group_of_allOpen hy _).mpr ⟨l2, k2⟩, w3, hu2, hv⟩
  · rw [Claim.prove, QuadEqu.prove_forget]
    exact (C36_quad sch crs _ cx cy _ _ _).1.mpr ⟨w1, w2, (rect_scalar_of_allOpen hx _).mpr ⟨l1, k1⟩,
      (rect_scalar_of_allOpen hy _).mpr ⟨l2, k2⟩, w3, hu2, hv2⟩

theorem runs_res {N : Nat} {α : Type} {x : Unw (List F) α} {f : List F → Res (α × List F)} {R : α → α → Prop} (h : Coupled N x.forget f R) :
    ∃ φ : (Fin N → F) ≃ (Fin N → F), ∀ t, ∃ a a', R a a' ∧ x.run (List.ofFn t) = (.ok a, []) ∧ f (List.ofFn (φ t)) = .ok (a', []) := by
  obtain ⟨φ, h⟩ := h
  refine ⟨φ, fun t => ?_⟩
  obtain ⟨a, a', hR, hr⟩ := h t
  obtain ⟨h1, h2⟩ := hr []
  rw [List.append_nil] at h1 h2
  exact ⟨a, a', hR, Unw.forget_ok.mp h1, h2⟩

section steps
variable [DecidableEq GT] {L : Ledger F G1 G2 GT} {s s' : Store (List F) F G1 G2}

theorem honest_hide {op : ApiCall F G1 G2 GT} (h : L.HonestCall e op) (hp : ∀ k i j c sch, op ≠ .prove k i j c sch)
    (hc : ∀ k i j c sch, op ≠ .commitAndProve k i j c sch) : (Ledger.hide L).HonestCall e op.hide := by
  cases op with
  | prove => exact (hp _ _ _ _ _ rfl).elim
  | commitAndProve => exact (hc _ _ _ _ _ rfl).elim
  | reloadL i m w =>
    show ((L.left i).map Item.hide).length < _
    rw [List.length_map]
    exact h
  | reloadR i m w =>
    show ((L.right i).map Item.hide).length < _
    rw [List.length_map]
    exact h
  | reloadP k m w =>
    intro pfs hk
    have hk' : Origin.hide (L.proofs k) = .received pfs := hk
    cases ho : L.proofs k with
    | made => rw [ho] at hk'; cases hk'
    | received p =>
      rw [ho] at hk'
      cases hk'
      exact h _ ho
  | _ => trivial

theorem simulate_step (crs : CRS G1 G2 GT) (cd : Codecs F G1 G2) (s : Store (List F) F G1 G2) {op : ApiCall F G1 G2 GT}
    (hp : ∀ k i j c sch, op ≠ .prove k i j c sch)
    (hc : ∀ k i j c sch, op ≠ .commitAndProve k i j c sch) : s.simulate e crs cd t1 t2 op.hide = s.step e crs cd op.hide := by
  cases op with
  | prove => exact (hp _ _ _ _ _ rfl).elim
  | commitAndProve => exact (hc _ _ _ _ _ rfl).elim
  | _ => rfl

theorem simulated_coupled (he : PrimeGroups e) (hu : crs.u = [u0, u1]) (hv : crs.v = [v0, v1])
    (ku : HidingKey crs.g1_gen a1 t1 u0 u1) (kv : HidingKey crs.g2_gen a2 t2 v0 v1) {cd : Codecs F G1 G2} (hcd : cd.Lawful)
    (h : Rel crs L (Ledger.hide L) s s') {op : ApiCall F G1 G2 GT} (ha : L.HonestCall e op) (hs : op.Simulatable) :
    ∃ φ : (Fin op.draws → F) ≃ (Fin op.draws → F), ∀ t,
      ((({ s with rng := List.ofFn t } : Store (List F) F G1 G2).step e crs cd op).1 =
        (({ s' with rng := List.ofFn (φ t) } : Store (List F) F G1 G2).simulate e crs cd t1 t2 op.hide).1) ∧
      Rel crs (L.step op) (Ledger.hide (L.step op)) (({ s with rng := List.ofFn t } : Store (List F) F G1 G2).step e crs cd op).2
        (({ s' with rng := List.ofFn (φ t) } : Store (List F) F G1 G2).simulate e crs cd t1 t2 op.hide).2 := by
  have hul : crs.u.length = 2 := by rw [hu]; rfl
  have hvl : crs.v.length = 2 := by rw [hv]; rfl
  rw [step_hide]
  by_cases hp : ∀ k i j c sch, op ≠ .prove k i j c sch
  · by_cases hc : ∀ k i j c sch, op ≠ .commitAndProve k i j c sch
    · obtain ⟨φ, hφ⟩ := step_coupled he hu hv ku kv hcd h ⟨twins_hide op, ha, honest_hide ha hp hc⟩
      refine ⟨φ, fun t => ?_⟩
      rw [simulate_step crs cd _ hp hc]
      exact hφ t
    · push Not at hc
      obtain ⟨k, i, j, c, sch, rfl⟩ := hc
      by_cases hf : c.WellFormed
      · have hf' := (wellFormed_hide c).mpr hf
        obtain ⟨φ, hφ⟩ := runs_res (N := (ApiCall.commitAndProve k i j c sch : ApiCall F G1 G2 GT).draws)
          (simulateAll_coupled he hu hv ku kv hf (ha hf) hs sch fun _ => seqSched)
        refine ⟨φ, fun t => ?_⟩
        obtain ⟨cp, cp', hR, r1, r2⟩ := hφ t
        have hd : (ApiCall.commitAndProve k i j c sch : ApiCall F G1 G2 GT).draws = c.hide.xs.draws + (c.hide.ys.draws + c.hide.equ.draws) := by
          have := claim_alike_hide c
          rw [← Batch.draws_eq this.2.1, ← Batch.draws_eq this.2.2, ← this.1]; rfl
        have hr3 : ∃ x, (c.hide.commitAndProve (fun _ => seqSched) crs).run (List.ofFn (φ t)) = (.ok x, []) := by
          have hU := uses_cap (crs := crs) hul hvl c.hide (fun _ => seqSched) hf'
          rw [← hd] at hU
          obtain ⟨x, hx, -⟩ := uses_run hU (φ t) []
          exact ⟨x, hx⟩
        obtain ⟨x, r3⟩ := hr3
        simp only [Store.step, Store.simulate, ApiCall.hide, r1, r2, r3, Ledger.step, hf, hf', if_true, true_and]
        exact ⟨setAt_sides h.left i (by rw [numbered_vals, numbered_vals]; exact hR.x),
          setAt_sides h.right j (by rw [numbered_vals, numbered_vals]; exact hR.y), setAt_proofs h.proofs k hR.p,
          forall_setAt (P := Kept) h.kept k hR.fits, forall_setAt (P := Kept) h.kept' k hR.fits'⟩
      · have hf' := (wellFormed_hide c).not.mpr hf
        refine ⟨Equiv.refl _, fun t => ?_⟩
        obtain ⟨p, r, h1⟩ := cap_panics (crs := crs) c sch (List.ofFn t) hf
        obtain ⟨p', r', h1'⟩ := cap_panics (crs := crs) c.hide (fun _ => seqSched) (List.ofFn t) hf'
        simp only [Store.step, Store.simulate, ApiCall.hide, Equiv.refl_apply, h1, h1', Ledger.step, hf, hf', if_false, true_and]
        exact h.rng _ _
  · push Not at hp
    obtain ⟨k, i, j, c, sch, rfl⟩ := hp
    have hiff := fits_hide c (L.left i) (L.right j)
    by_cases hf : c.Fits (L.left i) (L.right j)
    · have hf' : c.hide.Fits ((Ledger.hide L).left i) ((Ledger.hide L).right j) := hiff.mpr hf
      obtain ⟨x1, y1, z1⟩ := ha hf
      have hx := h.left i
      have hy := h.right j
      rw [show ((Ledger.hide L).left i).map (·.val) = _ from map_hide_val _, x1, ← batch_hide_vals, ← claim_hide_xs] at hx
      rw [show ((Ledger.hide L).right j).map (·.val) = _ from map_hide_val _, y1, ← batch_hide_vals, ← claim_hide_ys] at hy
      obtain ⟨φ, hφ⟩ := runs_res (N := (ApiCall.prove k i j c sch : ApiCall F G1 G2 GT).draws)
        (simulate_coupled he hu hv ku kv hf.1 z1 hs hx hy sch fun _ => seqSched)
      refine ⟨φ, fun t => ?_⟩
      obtain ⟨pf, pf', hR, r1, r2⟩ := hφ t
      obtain ⟨x, r, r3⟩ := prove_completes hul hvl (h.left i).opens' (h.right j).opens' c.hide (fun _ => seqSched) (List.ofFn (φ t)) hf'
      simp only [Store.step, Store.simulate, ApiCall.hide, r1, r2, r3, Ledger.step, hf, hf', if_true, true_and]
      exact ⟨h.left, h.right, setAt_proofs h.proofs k (congrArg (fun p => [p]) hR.1),
        forall_setAt (P := Kept) h.kept k fun p h => List.mem_singleton.mp h ▸ hR.2.1,
        forall_setAt (P := Kept) h.kept' k fun p h => List.mem_singleton.mp h ▸ hR.2.2⟩
    · have hf' : ¬ c.hide.Fits ((Ledger.hide L).left i) ((Ledger.hide L).right j) := hiff.not.mpr hf
      refine ⟨Equiv.refl _, fun t => ?_⟩
      obtain ⟨p, r, h1⟩ := prove_panics (h.left i).opens (h.right j).opens c sch (List.ofFn t) hf
      obtain ⟨p', r', h1'⟩ := prove_panics (h.left i).opens' (h.right j).opens' c.hide (fun _ => seqSched) (List.ofFn t) hf'
      simp only [Store.step, Store.simulate, ApiCall.hide, Equiv.refl_apply, h1, h1', Ledger.step, hf, hf', if_false, true_and]
      exact h.rng _ _

/-! ### Openings -/

theorem itemOpens_equivocate {G : Type} [AddCommGroup G] [Module F G] {gen : G} {a t : F} {u0 u1 : Com G} (k : HidingKey gen a t u0 u1)
    {c : Com G} {r : List F} (x : F) (h : ItemOpens [u0, u1] gen c r (.scalar 0)) :
    ItemOpens [u0, u1] gen c (equivocate t x r) (.scalar x) := by
  obtain ⟨_, _, _, hu, R, hR, h1, h2⟩ := h
  cases hu
  obtain ⟨p, rfl⟩ := List.length_eq_one_iff.mp hR
  simp only [List.map_cons, List.map_nil, List.cons.injEq, and_true, List.zipWith_cons_cons, List.zipWith_nil_left] at h1 h2
  subst h1
  refine ⟨u0, u1, [], rfl, [p - x * t], rfl, rfl, ?_⟩
  simp only [List.zipWith_cons_cons, List.zipWith_nil_left, List.cons.injEq, and_true]
  rw [h2, k.h0, k.h1]
  apply Com.ext <;> simp [scalarCom] <;> module

theorem multipleOf_spec {G : Type} [AddCommGroup G] [Module F G] {gen : G} {a t : F} {u0 u1 : Com G} (k : HidingKey gen a t u0 u1) (X : G) :
    X = (multipleOf gen X : F) • gen := by
  have h : ∃ x : F, X = x • gen := k.cyc X
  rw [multipleOf, dif_pos h]
  exact h.choose_spec

theorem itemOpens_shown {G : Type} [AddCommGroup G] [Module F G] {gen : G} {a t : F} {u0 u1 : Com G} (k : HidingKey gen a t u0 u1)
    {c : Com G} {r : List F} (v : Val F G) (h : ItemOpens [u0, u1] gen c r v.hide) : ItemOpens [u0, u1] gen c (showOpened t gen v r) v := by
  cases v with
  | scalar x => exact itemOpens_equivocate k x h
  | group X =>
    obtain ⟨_, _, _, hu, R, hR, h1, h2⟩ := h
    cases hu
    obtain ⟨p, rfl⟩ := List.length_eq_one_iff.mp hR
    simp only [List.map_cons, List.map_nil, List.cons.injEq, and_true, List.zipWith_cons_cons, List.zipWith_nil_left] at h1 h2
    subst h1
    refine ⟨u0, u1, [], rfl, [(p.1 - multipleOf gen X * t, p.2 + multipleOf gen X)], rfl, rfl, ?_⟩
    simp only [List.zipWith_cons_cons, List.zipWith_nil_left, List.cons.injEq, and_true]
    have hX := multipleOf_spec k X
    generalize (multipleOf gen X : F) = x at hX
    subst hX
    rw [h2, k.h0, k.h1]
    apply Com.ext <;> simp [groupCom] <;> module

theorem allOpen_equivocate {G : Type} [AddCommGroup G] [Module F G] {gen : G} {a t : F} {u0 u1 : Com G} (k : HidingKey gen a t u0 u1)
    {cs : List (Com G)} {rs rs' : List (List F)} {vs : List (Val F G)} {v : Val F G}
    (h : AllOpen [u0, u1] gen cs rs vs) (h' : AllOpen [u0, u1] gen cs rs' (vs.map Val.hide)) (i : Nat) (hi : vs[i]? = some v) :
    rs[i]? = (rs'[i]?).map (showOpened t gen v) := by
  induction vs generalizing cs rs rs' i with
  | nil => simp at hi
  | cons w vs ih =>
    cases cs with
    | nil => cases rs <;> simp [AllOpen] at h
    | cons c cs => cases rs with
      | nil => simp [AllOpen] at h
      | cons r rs => cases rs' with
        | nil => simp [AllOpen] at h'
        | cons r' rs' =>
          cases i with
          | zero =>
            simp only [List.getElem?_cons_zero, Option.some.injEq, Option.map_some] at hi ⊢
            subst hi
            exact itemOpens_unique k h.1 (itemOpens_shown k _ h'.1)
          | succ i =>
            simp only [List.getElem?_cons_succ] at hi ⊢
            exact ih h.2 h'.2 i hi

/-- The library and the simulator look the same to every adversary. -/
theorem examine_eq [Fintype F] (he : PrimeGroups e) (hu : crs.u = [u0, u1]) (hv : crs.v = [v0, v1])
    (ku : HidingKey crs.g1_gen a1 t1 u0 u1) (kv : HidingKey crs.g2_gen a2 t2 v0 v1) {cd : Codecs F G1 G2} (hcd : cd.Lawful)
    (σ : Examiner F G1 G2 GT) (h : Rel crs L (Ledger.hide L) s s') (t1' t2' : F) :
    examine e crs cd t1' t2' false σ L s = examine e crs cd t1 t2 true σ L s' := by
  induction σ generalizing L s s' with
  | stop p => rfl
  | call op next ih =>
    simp only [examine]
    split
    · next ha =>
      obtain ⟨φ, hφ⟩ := simulated_coupled he hu hv ku kv hcd h ha.1 ha.2
      refine Fintype.expect_equiv φ _ _ fun t => ?_
      obtain ⟨h1, h2⟩ := hφ t
      simp only [Bool.false_eq_true, if_false, if_true]
      rw [h1, h2.pub]
      exact ih _ _ h2
    · rfl
  | openL i k next ih =>
    simp only [examine]
    cases hk : (L.left i)[k]? with
    | none => exact ih _ h
    | some it =>
      have := allOpen_equivocate ku (hu ▸ (h.left i).opens) (v := it.val)
        (by rw [(h.left i).coms, ← map_hide_val]; exact hu ▸ (h.left i).opens') k (by rw [List.getElem?_map, hk]; rfl)
      simp only [Bool.false_eq_true, if_false, if_true]
      rw [this]
      exact ih _ h
  | openR i k next ih =>
    simp only [examine]
    cases hk : (L.right i)[k]? with
    | none => exact ih _ h
    | some it =>
      have := allOpen_equivocate kv (hv ▸ (h.right i).opens) (v := it.val)
        (by rw [(h.right i).coms, ← map_hide_val]; exact hv ▸ (h.right i).opens') k (by rw [List.getElem?_map, hk]; rfl)
      simp only [Bool.false_eq_true, if_false, if_true]
      rw [this]
      exact ih _ h

theorem examine_mem [Fintype F] (crs : CRS G1 G2 GT) (cd : Codecs F G1 G2) (t1 t2 : F) (b : Bool) {σ : Examiner F G1 G2 GT} (h : σ.Bounded)
    (L : Ledger F G1 G2 GT) (s : Store (List F) F G1 G2) : 0 ≤ examine e crs cd t1 t2 b σ L s ∧ examine e crs cd t1 t2 b σ L s ≤ 1 := by
  induction σ generalizing L s with
  | stop p => exact h
  | call op next ih =>
    simp only [examine]
    split
    · constructor
      · exact Finset.expect_nonneg fun t _ => (ih _ _ (h _ _) _ _).1
      · exact Finset.expect_le Finset.univ_nonempty fun t _ => (ih _ _ (h _ _) _ _).2
    · simp
  | openL i k next ih =>
    simp only [examine]
    split <;> exact ih _ (h _) _ _
  | openR i k next ih =>
    simp only [examine]
    split <;> exact ih _ (h _) _ _

end steps

end GS.Adaptive
