import Verif.Spec.Convert
import Verif.Props.Tamper
import Verif.Props.Variables

/-!
# C81: proofs about scalars become proofs about group elements

The equations and the completed proofs are in `Verif/Spec/Convert.lean`.
-/

set_option linter.unusedSectionVars false

namespace GS
variable {F G1 G2 GT : Type} [Field F] [AddCommGroup G1] [Module F G1] [AddCommGroup G2] [Module F G2]
  [AddCommGroup GT] [Module F GT] {e : G1 →ₗ[F] G2 →ₗ[F] GT} {crs : CRS G1 G2 GT}

/-! ### What the equations say -/

theorem equLhs_comp {A A' B B' C C' : Type} [AddCommGroup C] [Module F C] [AddCommGroup C'] [Module F C'] (f : A → B → C)
    (f' : A' → B' → C') (α : A → A') (β : B → B') (φ : C →ₗ[F] C') (h : ∀ x y, f' (α x) (β y) = φ (f x y))
    (a c : List A) (b d : List B) (gamma : Matrix F) :
    equLhs f' (a.map α) (c.map α) (b.map β) (d.map β) gamma = φ (equLhs f a c b d gamma) := by
  have h1 : ∀ (a : List A) (b : List B), (List.zipWith f' (a.map α) (b.map β)).sum = φ (List.zipWith f a b).sum := by
    intro a b
    induction a generalizing b with
    | nil => simp
    | cons x a ih => cases b with
      | nil => simp
      | cons y b => simp only [List.map_cons, List.zipWith_cons_cons, List.sum_cons, ih, h, map_add]
  have h2 : ∀ (x : A) (row : List F), (List.zipWith (fun g y => g • f' (α x) y) row (d.map β)).sum =
      φ (List.zipWith (fun g y => g • f x y) row d).sum := by
    intro x row
    induction row generalizing d with
    | nil => simp
    | cons g row ih => cases d with
      | nil => simp
      | cons y d => simp only [List.map_cons, List.zipWith_cons_cons, List.sum_cons, ih, h, map_add, map_smul]
  have h3 : (List.zipWith (fun x row => (List.zipWith (fun g y => g • f' x y) row (d.map β)).sum) (c.map α) gamma).sum =
      φ (List.zipWith (fun x row => (List.zipWith (fun g y => g • f x y) row d).sum) c gamma).sum := by
    induction c generalizing gamma with
    | nil => simp
    | cons x c ih => cases gamma with
      | nil => simp
      | cons row gamma => simp only [List.map_cons, List.zipWith_cons_cons, List.sum_cons, ih, h2, map_add]
  simp only [equLhs, map_add]
  rw [h3]
  exact congrArg₂ _ (congrArg₂ _ (h1 a d) (h1 c b)) rfl

/-- C81: the new equations say the same about the multiples of the generators. -/
theorem C81_holds (he : PrimeGroups e) (h0 : crs.NonzeroGens) :
    (∀ (equ : MSMEG1 F G1) x y, (equ.toPPE crs e).Holds e x (y.map (· • crs.g2_gen)) ↔ equ.Holds x y) ∧
    (∀ (equ : MSMEG2 F G2) x y, (equ.toPPE crs e).Holds e (x.map (· • crs.g1_gen)) y ↔ equ.Holds x y) ∧
    (∀ (equ : QuadEqu F) x y, (equ.toMSMEG1 crs).Holds (x.map (· • crs.g1_gen)) y ↔ equ.Holds x y) ∧
    (∀ (equ : QuadEqu F) x y, (equ.toMSMEG2 crs).Holds x (y.map (· • crs.g2_gen)) ↔ equ.Holds x y) := by
  obtain ⟨h1, h2⟩ := h0
  have i1 : Function.Injective (e.flip crs.g2_gen) := by
    rw [injective_iff_map_eq_zero]
    exact fun a h => (he.nondeg a _ h).resolve_right h2
  have i2 : Function.Injective (e crs.g1_gen) := by
    rw [injective_iff_map_eq_zero]
    exact fun a h => (he.nondeg _ a h).resolve_left h1
  refine ⟨fun equ x y => ?_, fun equ x y => ?_, fun equ x y => ?_, fun equ x y => ?_⟩
  · have := equLhs_comp (fun (x : G1) (y : F) => y • x) (fun x y => e x y) id (· • crs.g2_gen) (e.flip crs.g2_gen)
      (by simp) equ.a_consts x equ.b_consts y equ.gamma
    simp only [List.map_id] at this
    simp only [PPE.Holds, MSMEG1.Holds, MSMEG1.toPPE]
    rw [this]
    exact i1.eq_iff
  · have := equLhs_comp (fun (x : F) (y : G2) => x • y) (fun x y => e x y) (· • crs.g1_gen) id (e crs.g1_gen)
      (by simp) equ.a_consts x equ.b_consts y equ.gamma
    simp only [List.map_id] at this
    simp only [PPE.Holds, MSMEG2.Holds, MSMEG2.toPPE]
    rw [this]
    exact i2.eq_iff
  · have := equLhs_comp (fun (x : F) (y : F) => x * y) (fun (x : G1) (y : F) => y • x) (· • crs.g1_gen) id
      (LinearMap.toSpanSingleton F G1 crs.g1_gen)
      (by intro x y; rw [LinearMap.toSpanSingleton_apply, mul_comm, mul_smul]; rfl) equ.a_consts x equ.b_consts y equ.gamma
    simp only [List.map_id] at this
    simp only [QuadEqu.Holds, MSMEG1.Holds, QuadEqu.toMSMEG1]
    rw [this]
    exact (smul_left_injective F h1).eq_iff
  · have := equLhs_comp (fun (x : F) (y : F) => x * y) (fun (x : F) (y : G2) => x • y) id (· • crs.g2_gen)
      (LinearMap.toSpanSingleton F G2 crs.g2_gen) (by intro x y; simp [mul_smul]) equ.a_consts x equ.b_consts y equ.gamma
    simp only [List.map_id] at this
    simp only [QuadEqu.Holds, MSMEG2.Holds, QuadEqu.toMSMEG2]
    rw [this]
    exact (smul_left_injective F h2).eq_iff

/-! ### The verification equations -/

theorem emb_smul' {G : Type} [AddCommGroup G] [Module F G] (r : F) (x : G) : (emb (r • x) : Com G) = r • emb x := by
  apply Com.ext <;> simp [emb]

theorem tensor_zero_right (c : Com G1) : tensor e c 0 = 0 := by rw [tensor_eq, map_zero]

theorem sum_lift_b (b : List F) (v1 : Com G2) (g : G2) : ∀ c : List (Com G1),
    (List.zipWith (fun x b => tensor e x b) c (b.map fun b => b • (v1 + emb g))).sum =
    (List.zipWith (fun x b => tensor e x b) c ((b.map (· • g)).map emb)).sum +
      tensor e (List.zipWith (fun b c => b • c) b c).sum v1 := by
  induction b with
  | nil => intro c; simp [tensor_eq]
  | cons b0 b ih =>
    intro c
    cases c with
    | nil => simp [tensor_eq]
    | cons c0 c =>
      simp only [List.map_cons, List.zipWith_cons_cons, List.sum_cons, ih]
      simp only [tensor_eq, emb_smul', map_add, map_smul, smul_add, LinearMap.add_apply, LinearMap.smul_apply]
      abel

theorem sum_lift_a (a : List F) (u1 : Com G1) (g : G1) : ∀ d : List (Com G2),
    (List.zipWith (fun a y => tensor e a y) (a.map fun a => a • (u1 + emb g)) d).sum =
    (List.zipWith (fun a y => tensor e a y) ((a.map (· • g)).map emb) d).sum +
      tensor e u1 (List.zipWith (fun a d => a • d) a d).sum := by
  induction a with
  | nil => intro d; simp [tensor_zero_right]
  | cons a0 a ih =>
    intro d
    cases d with
    | nil => simp [tensor_zero_right]
    | cons d0 d =>
      simp only [List.map_cons, List.zipWith_cons_cons, List.sum_cons, ih]
      simp only [tensor_eq, emb_smul', map_add, map_smul, smul_add, LinearMap.add_apply, LinearMap.smul_apply]
      abel

theorem equLhs_lift_b (a c : List (Com G1)) (b : List F) (d : List (Com G2)) (gamma : Matrix F) (v1 : Com G2) (g : G2) :
    equLhs (tensor e) a c (b.map fun b => b • (v1 + emb g)) d gamma =
    equLhs (tensor e) a c ((b.map (· • g)).map emb) d gamma + tensor e (List.zipWith (fun b c => b • c) b c).sum v1 := by
  simp only [equLhs]
  rw [sum_lift_b]
  abel

theorem equLhs_lift_a (a : List F) (c : List (Com G1)) (b d : List (Com G2)) (gamma : Matrix F) (u1 : Com G1) (g : G1) :
    equLhs (tensor e) (a.map fun a => a • (u1 + emb g)) c b d gamma =
    equLhs (tensor e) ((a.map (· • g)).map emb) c b d gamma + tensor e u1 (List.zipWith (fun a d => a • d) a d).sum := by
  simp only [equLhs]
  rw [sum_lift_a]
  abel

/-! ### Proofs -/

variable [DecidableEq GT] {sch sch' : Scheduler}

theorem sameOutcome_of_equation {x y : Res Bool} {P Q : Prop} (hok : x.Ok ↔ y.Ok) (hx : ∀ r, x = .ok r → (r = true ↔ P))
    (hy : ∀ r, y = .ok r → (r = true ↔ Q)) (h : x.Ok → (P ↔ Q)) : SameOutcome x y := by
  refine sameOutcome_of_bool hok ⟨fun h1 => ?_, fun h1 => ?_⟩
  · obtain ⟨r, hr⟩ := hok.mp ⟨_, h1⟩
    rw [hr, (hy r hr).mpr ((h ⟨_, h1⟩).mp ((hx _ h1).mp rfl))]
  · obtain ⟨r, hr⟩ := hok.mpr ⟨_, h1⟩
    rw [hr, (hx r hr).mpr ((h ⟨_, hr⟩).mpr ((hy _ h1).mp rfl))]

theorem take1_of_get {α : Type} {l : List α} {a : α} (h : l[0]? = some a) : l.take 1 = [a] := by
  cases l with
  | nil => simp at h
  | cons b l => simp at h; simp [h]

theorem take1_append_length {α : Type} {l : List α} {a : α} : (l.take 1 ++ [a]).length = 2 ↔ l ≠ [] := by
  cases l <;> simp

/-- C81, MSMEG1 to PPE. -/
theorem C81_msmeg1_ppe (hv : crs.v.length = 2) (equ : MSMEG1 F G1) (xc : Commit F G1) (yc : Commit F G2)
    (pf : EquProof F G1 G2) (ht : pf.equ_type = .MultiScalarG1) :
    SameOutcome (equ.verify e sch ⟨xc, yc, [pf]⟩ crs)
      ((equ.toPPE crs e).verify e sch' ⟨xc, yc, [equ.toPPEProof xc.coms pf]⟩ crs) := by
  obtain ⟨v0, v1, hv⟩ := List.length_eq_two.mp hv
  refine sameOutcome_of_equation (P := equ.Equation e crs xc.coms yc.coms pf)
    (Q := (equ.toPPE crs e).Equation e crs xc.coms yc.coms (equ.toPPEProof xc.coms pf)) ?_ ?_ ?_ ?_
  · rw [C37_msmeg1, C37_ppe]
    constructor
    · rintro ⟨_, h, h1, h2, h3, h4, h5, h6, -⟩
      cases h
      exact ⟨_, rfl, rfl, h2, by simpa [MSMEG1.toPPE] using h3, h4, h5, by rw [hv]; exact take1_append_length.mpr h6⟩
    · rintro ⟨_, h, h1, h2, h3, h4, h5, h6⟩
      cases h
      exact ⟨_, rfl, ht, h2, by simpa [MSMEG1.toPPE] using h3, h4, h5,
        take1_append_length.mp (h6.trans (by simp [hv])), by simp [hv]⟩
  · intro r hr
    obtain ⟨_, hpf, h⟩ := C53_msmeg1 _ _ _ _ hr
    cases hpf
    exact h
  · intro r hr
    obtain ⟨_, hpf, h⟩ := C53_ppe _ _ _ _ hr
    cases hpf
    exact h
  · intro hok
    obtain ⟨_, hpf, -, -, -, -, -, hth, -⟩ := (C37_msmeg1 _ _ _ _ _).mp hok
    cases hpf
    obtain ⟨q0, hq⟩ := exists_get0 hth
    rw [MSMEG1.equation_iff (v0 := v0) (v1 := v1) (by simp [hv]) (by simp [hv]) hq]
    simp only [PPE.Equation, gsEquation, MSMEG1.toPPE, MSMEG1.toPPEProof, take1_of_get hq, hv, List.cons_append,
      List.nil_append, List.zipWith_cons_cons, List.zipWith_nil_left, List.sum_cons, List.sum_nil, add_zero]
    rw [equLhs_lift_b, show (⟨0, 0, 0, e equ.target crs.g2_gen⟩ : ComT GT) =
      tensor e (emb equ.target) (emb crs.g2_gen) by simp [tensor, emb]]
    simp only [tensor_eq, map_add, map_sub, LinearMap.sub_apply]
    rw [← sub_eq_zero, ← sub_eq_zero (b := _ + _ + (_ + _))]
    refine Eq.congr ?_ rfl
    abel

/-- C81, MSMEG2 to PPE. -/
theorem C81_msmeg2_ppe (hu : crs.u.length = 2) (equ : MSMEG2 F G2) (xc : Commit F G1) (yc : Commit F G2)
    (pf : EquProof F G1 G2) (ht : pf.equ_type = .MultiScalarG2) :
    SameOutcome (equ.verify e sch ⟨xc, yc, [pf]⟩ crs)
      ((equ.toPPE crs e).verify e sch' ⟨xc, yc, [equ.toPPEProof yc.coms pf]⟩ crs) := by
  obtain ⟨u0, u1, hu⟩ := List.length_eq_two.mp hu
  refine sameOutcome_of_equation (P := equ.Equation e crs xc.coms yc.coms pf)
    (Q := (equ.toPPE crs e).Equation e crs xc.coms yc.coms (equ.toPPEProof yc.coms pf)) ?_ ?_ ?_ ?_
  · rw [C37_msmeg2, C37_ppe]
    constructor
    · rintro ⟨_, h, h1, h2, h3, h4, h5, h6, h7⟩
      cases h
      exact ⟨_, rfl, rfl, by simpa [MSMEG2.toPPE] using h2, h3, h4, by rw [hu]; exact take1_append_length.mpr h5, h7⟩
    · rintro ⟨_, h, h1, h2, h3, h4, h5, h6⟩
      cases h
      exact ⟨_, rfl, ht, by simpa [MSMEG2.toPPE] using h2, h3, h4,
        take1_append_length.mp (h5.trans (by simp [hu])), by simp [hu], h6⟩
  · intro r hr
    obtain ⟨_, hpf, h⟩ := C53_msmeg2 _ _ _ _ hr
    cases hpf
    exact h
  · intro r hr
    obtain ⟨_, hpf, h⟩ := C53_ppe _ _ _ _ hr
    cases hpf
    exact h
  · intro hok
    obtain ⟨_, hpf, -, -, -, -, hpi, -⟩ := (C37_msmeg2 _ _ _ _ _).mp hok
    cases hpf
    obtain ⟨p0, hp⟩ := exists_get0 hpi
    rw [MSMEG2.equation_iff (u0 := u0) (u1 := u1) (by simp [hu]) (by simp [hu]) hp]
    simp only [PPE.Equation, gsEquation, MSMEG2.toPPE, MSMEG2.toPPEProof, take1_of_get hp, hu, List.cons_append,
      List.nil_append, List.zipWith_cons_cons, List.zipWith_nil_left, List.sum_cons, List.sum_nil, add_zero]
    rw [equLhs_lift_a, show (⟨0, 0, 0, e crs.g1_gen equ.target⟩ : ComT GT) =
      tensor e (emb crs.g1_gen) (emb equ.target) by simp [tensor, emb]]
    simp only [tensor_eq, map_add, map_sub, LinearMap.add_apply]
    rw [← sub_eq_zero, ← sub_eq_zero (b := _ + (_ + _) + _)]
    refine Eq.congr ?_ rfl
    abel

/-- C81, QuadEqu to MSMEG1. -/
theorem C81_quad_msmeg1 (hu : crs.u.length = 2) (equ : QuadEqu F) (xc : Commit F G1) (yc : Commit F G2)
    (pf : EquProof F G1 G2) (ht : pf.equ_type = .Quadratic) {v1 : Com G2} (hv1 : crs.v[1]? = some v1) :
    SameOutcome (equ.verify e sch ⟨xc, yc, [pf]⟩ crs)
      ((equ.toMSMEG1 crs).verify e sch' ⟨xc, yc, [equ.toMSMEG1Proof crs v1 yc.coms pf]⟩ crs) := by
  obtain ⟨u0, u1, hu⟩ := List.length_eq_two.mp hu
  obtain ⟨v0, v', hv⟩ := cons2_of_get hv1
  refine sameOutcome_of_equation (P := equ.Equation e crs xc.coms yc.coms pf)
    (Q := (equ.toMSMEG1 crs).Equation e crs xc.coms yc.coms (equ.toMSMEG1Proof crs v1 yc.coms pf)) ?_ ?_ ?_ ?_
  · rw [C37_quad, C37_msmeg1]
    constructor
    · rintro ⟨_, h, h1, h2, h3, h4, h5, h6, h7, h8⟩
      cases h
      exact ⟨_, rfl, rfl, by simpa [QuadEqu.toMSMEG1] using h2, h3, h4, by rw [hu]; exact take1_append_length.mpr h5, h7, h8⟩
    · rintro ⟨_, h, h1, h2, h3, h4, h5, h6, h7⟩
      cases h
      exact ⟨_, rfl, ht, by simpa [QuadEqu.toMSMEG1] using h2, h3, h4,
        take1_append_length.mp (h5.trans (by simp [hu])), by simp [hu], h6, h7⟩
  · intro r hr
    obtain ⟨_, hpf, h⟩ := C53_quad _ _ _ _ hr
    cases hpf
    exact h
  · intro r hr
    obtain ⟨_, hpf, h⟩ := C53_msmeg1 _ _ _ _ hr
    cases hpf
    exact h
  · intro hok
    obtain ⟨_, hpf, -, -, -, -, hpi, -, hth, -⟩ := (C37_quad _ _ _ _ _).mp hok
    cases hpf
    obtain ⟨p0, hp⟩ := exists_get0 hpi
    obtain ⟨q0, hq⟩ := exists_get0 hth
    rw [QuadEqu.equation_iff (u0 := u0) (u1 := u1) (by simp [hu]) (by simp [hu]) hp (v0 := v0) (v1 := v1) (by simp [hv])
      hv1 hq, MSMEG1.equation_iff (v0 := v0) (v1 := v1) (q0 := q0)
      (pf := equ.toMSMEG1Proof crs v1 yc.coms pf) (by simp [hv]) hv1 hq]
    simp only [gsEquation, QuadEqu.toMSMEG1, QuadEqu.toMSMEG1Proof, take1_of_get hp, hu, List.cons_append,
      List.nil_append, List.zipWith_cons_cons, List.zipWith_nil_left, List.sum_cons, List.sum_nil, add_zero]
    rw [equLhs_lift_a]
    simp only [tensor_eq, emb_smul', map_add, map_sub, map_smul, smul_add, LinearMap.add_apply, LinearMap.smul_apply]
    rw [← sub_eq_zero, ← sub_eq_zero (b := _ + (_ + _) + _)]
    refine Eq.congr ?_ rfl
    abel

/-- C81, QuadEqu to MSMEG2. -/
theorem C81_quad_msmeg2 (hv : crs.v.length = 2) (equ : QuadEqu F) (xc : Commit F G1) (yc : Commit F G2)
    (pf : EquProof F G1 G2) (ht : pf.equ_type = .Quadratic) {u1 : Com G1} (hu1 : crs.u[1]? = some u1) :
    SameOutcome (equ.verify e sch ⟨xc, yc, [pf]⟩ crs)
      ((equ.toMSMEG2 crs).verify e sch' ⟨xc, yc, [equ.toMSMEG2Proof crs u1 xc.coms pf]⟩ crs) := by
  obtain ⟨v0, v1, hv⟩ := List.length_eq_two.mp hv
  obtain ⟨u0, u', hu⟩ := cons2_of_get hu1
  refine sameOutcome_of_equation (P := equ.Equation e crs xc.coms yc.coms pf)
    (Q := (equ.toMSMEG2 crs).Equation e crs xc.coms yc.coms (equ.toMSMEG2Proof crs u1 xc.coms pf)) ?_ ?_ ?_ ?_
  · rw [C37_quad, C37_msmeg2]
    constructor
    · rintro ⟨_, h, h1, h2, h3, h4, h5, h6, h7, h8⟩
      cases h
      exact ⟨_, rfl, rfl, h2, by simpa [QuadEqu.toMSMEG2] using h3, h4, h5, h6, by rw [hv]; exact take1_append_length.mpr h7⟩
    · rintro ⟨_, h, h1, h2, h3, h4, h5, h6, h7⟩
      cases h
      exact ⟨_, rfl, ht, h2, by simpa [QuadEqu.toMSMEG2] using h3, h4, h5, h6,
        take1_append_length.mp (h7.trans (by simp [hv])), by simp [hv]⟩
  · intro r hr
    obtain ⟨_, hpf, h⟩ := C53_quad _ _ _ _ hr
    cases hpf
    exact h
  · intro r hr
    obtain ⟨_, hpf, h⟩ := C53_msmeg2 _ _ _ _ hr
    cases hpf
    exact h
  · intro hok
    obtain ⟨_, hpf, -, -, -, -, hpi, -, hth, -⟩ := (C37_quad _ _ _ _ _).mp hok
    cases hpf
    obtain ⟨p0, hp⟩ := exists_get0 hpi
    obtain ⟨q0, hq⟩ := exists_get0 hth
    rw [QuadEqu.equation_iff (u0 := u0) (u1 := u1) (by simp [hu]) hu1 hp (v0 := v0) (v1 := v1) (by simp [hv])
      (by simp [hv]) hq, MSMEG2.equation_iff (u0 := u0) (u1 := u1) (p0 := p0)
      (pf := equ.toMSMEG2Proof crs u1 xc.coms pf) (by simp [hu]) hu1 hp]
    simp only [gsEquation, QuadEqu.toMSMEG2, QuadEqu.toMSMEG2Proof, take1_of_get hq, hv, List.cons_append,
      List.nil_append, List.zipWith_cons_cons, List.zipWith_nil_left, List.sum_cons, List.sum_nil, add_zero]
    rw [equLhs_lift_b]
    simp only [tensor_eq, emb_smul', map_add, map_sub, map_smul, smul_add, LinearMap.add_apply, LinearMap.smul_apply,
      LinearMap.sub_apply]
    rw [← sub_eq_zero, ← sub_eq_zero (b := _ + _ + (_ + _))]
    refine Eq.congr ?_ rfl
    abel

/-! ### Examples: the completed proofs of honest ones are accepted -/

section examples
open Ex

example : (do
    let (cp, _) ← msm1_7.commitAndProve (fun _ => seqSched) [2] [3, 4] crs7 (1 : Nat)
    let pf ← idx cp.equ_proofs 0
    (msm1_7.toPPE crs7 e7).verify e7 seqSched ⟨cp.xcoms, cp.ycoms, [msm1_7.toPPEProof cp.xcoms.coms pf]⟩ crs7) = .ok true := by
  decide +kernel

example : (do
    let (cp, _) ← msm2_7.commitAndProve (fun _ => seqSched) [2] [3, 4] crs7 (1 : Nat)
    let pf ← idx cp.equ_proofs 0
    (msm2_7.toPPE crs7 e7).verify e7 seqSched ⟨cp.xcoms, cp.ycoms, [msm2_7.toPPEProof cp.ycoms.coms pf]⟩ crs7) = .ok true := by
  decide +kernel

example : (do
    let (cp, _) ← quad7.commitAndProve (fun _ => seqSched) [2] [3, 4] crs7 (1 : Nat)
    let pf ← idx cp.equ_proofs 0
    let v1 ← idx crs7.v 1
    (quad7.toMSMEG1 crs7).verify e7 seqSched ⟨cp.xcoms, cp.ycoms, [quad7.toMSMEG1Proof crs7 v1 cp.ycoms.coms pf]⟩ crs7) =
      .ok true := by
  decide +kernel

example : (do
    let (cp, _) ← quad7.commitAndProve (fun _ => seqSched) [2] [3, 4] crs7 (1 : Nat)
    let pf ← idx cp.equ_proofs 0
    let u1 ← idx crs7.u 1
    (quad7.toMSMEG2 crs7).verify e7 seqSched ⟨cp.xcoms, cp.ycoms, [quad7.toMSMEG2Proof crs7 u1 cp.xcoms.coms pf]⟩ crs7) =
      .ok true := by
  decide +kernel

example : crs7.u.length = 2 ∧ crs7.v.length = 2 ∧ crs7.NonzeroGens := ⟨rfl, rfl, crs7_nonzero⟩

end examples

/-! ### Instances -/

namespace Ex

example := C81_holds prime7 crs7_nonzero
example (sch sch' : Scheduler) (xc yc : Commit K K) (pi theta : List (Com K)) :=
  C81_msmeg1_ppe (e := e7) (crs := crs7) (sch := sch) (sch' := sch') rfl msm1_7 xc yc ⟨pi, theta, .MultiScalarG1, []⟩ rfl
example (sch sch' : Scheduler) (xc yc : Commit K K) (pi theta : List (Com K)) :=
  C81_msmeg2_ppe (e := e7) (crs := crs7) (sch := sch) (sch' := sch') rfl msm2_7 xc yc ⟨pi, theta, .MultiScalarG2, []⟩ rfl
example (sch sch' : Scheduler) (xc yc : Commit K K) (pi theta : List (Com K)) :=
  C81_quad_msmeg1 (e := e7) (crs := crs7) (sch := sch) (sch' := sch') rfl quad7 xc yc ⟨pi, theta, .Quadratic, []⟩ rfl rfl
example (sch sch' : Scheduler) (xc yc : Commit K K) (pi theta : List (Com K)) :=
  C81_quad_msmeg2 (e := e7) (crs := crs7) (sch := sch) (sch' := sch') rfl quad7 xc yc ⟨pi, theta, .Quadratic, []⟩ rfl rfl

end Ex

end GS
