import Verif.Spec.Accept
import Verif.Lemmas.SimKey

/-! The verifiers compute the verification equations. -/

set_option linter.unusedSectionVars false
set_option linter.unusedVariables false

namespace GS
variable {F G1 G2 GT : Type} [Field F] [AddCommGroup G1] [Module F G1] [AddCommGroup G2] [Module F G2]
  [AddCommGroup GT] [Module F GT] {e : G1 →ₗ[F] G2 →ₗ[F] GT} {crs : CRS G1 G2 GT} {cp : CProof F G1 G2}
  {sch : Scheduler} {r : Bool}

theorem tensor_eq (c : Com G1) (d : Com G2) : tensor e c d = ComT.pairL e c d := rfl
theorem tensor_pairing : tensor e = fun x y => ComT.pairing e x y := rfl

theorem batchLinearMap1_eq (x : List G1) : Com1.batchLinearMap x = x.map emb := rfl
theorem batchLinearMap2_eq (x : List G2) : Com2.batchLinearMap x = x.map emb := rfl

theorem batchScalarLinearMap1_eq {x : List F} {a : List (Com G1)} {u0 u1 : Com G1} {u' : List (Com G1)}
    (hu : crs.u = u0 :: u1 :: u') (h : Com1.batchScalarLinearMap x crs = .ok a) :
    a = x.map fun a => a • (u1 + emb crs.g1_gen) := by
  rcases batchScalarLinearMap1_iff.mp h with ⟨rfl, rfl⟩ | ⟨w, hw, rfl⟩
  · rfl
  · rw [hu] at hw; cases hw; rfl

theorem batchScalarLinearMap2_eq {x : List F} {a : List (Com G2)} {v0 v1 : Com G2} {v' : List (Com G2)}
    (hv : crs.v = v0 :: v1 :: v') (h : Com2.batchScalarLinearMap x crs = .ok a) :
    a = x.map fun a => a • (v1 + emb crs.g2_gen) := by
  rcases batchScalarLinearMap2_iff.mp h with ⟨rfl, rfl⟩ | ⟨w, hw, rfl⟩
  · rfl
  · rw [hv] at hw; cases hw; rfl

theorem cons2_of_get {α : Type} {l : List α} {a : α} (h : l[1]? = some a) : ∃ b l', l = b :: a :: l' := by
  rcases l with _ | ⟨b, _ | ⟨c, l⟩⟩
  · simp at h
  · simp at h
  · simp at h; subst h; exact ⟨_, _, rfl⟩

theorem cons_of_idx {α : Type} {l : List α} {a : α} (h : idx l 0 = .ok a) : ∃ l', l = a :: l' := by
  rcases l with _ | ⟨b, l⟩
  · simp at h
  · simp at h; subst h; exact ⟨_, rfl⟩

variable [DecidableEq GT]

theorem PPE.verify_equation {equ : PPE F G1 G2 GT} (h : equ.verify e sch cp crs = .ok r) :
    ∃ pf, cp.equ_proofs = [pf] ∧ (r = true ↔ equ.Equation e crs cp.xcoms.coms cp.ycoms.coms pf) := by
  rw [PPE.verify_iff] at h
  obtain ⟨pf, h1, -, h3⟩ := h
  obtain ⟨a, b, t, q1, q2, ha, hb, ht, hq1, hq2, -, -, -, rfl⟩ := verifyCore_iff.mp h3
  cases ha; cases hb; cases ht
  rw [ComT.pairingSum_iff] at hq1 hq2
  refine ⟨pf, h1, ?_⟩
  rw [decide_eq_true_iff, hq1.2, hq2.2]
  rfl

theorem MSMEG1.verify_equation {equ : MSMEG1 F G1} (h : equ.verify e sch cp crs = .ok r) :
    ∃ pf, cp.equ_proofs = [pf] ∧ (r = true ↔ equ.Equation e crs cp.xcoms.coms cp.ycoms.coms pf) := by
  rw [MSMEG1.verify_iff] at h
  obtain ⟨pf, h1, -, h3⟩ := h
  obtain ⟨a, b, t, q1, q2, ha, hb, ht, hq1, hq2, -, -, -, rfl⟩ := verifyCore_iff.mp h3
  cases ha
  obtain ⟨v1, hv1, rfl⟩ := linearMapMSMEG1_iff.mp ht
  obtain ⟨v0, v', hv⟩ := cons2_of_get hv1
  rw [ComT.pairingSum_iff] at hq1
  simp only [bind_ok_iff, pure_eq_ok, Except.ok.injEq] at hq2
  obtain ⟨t0, ht0, v0', hv0, rfl⟩ := hq2
  rw [hv] at hv0; cases hv0
  obtain ⟨t', ht'⟩ := cons_of_idx ht0
  obtain rfl := batchScalarLinearMap2_eq hv hb
  refine ⟨pf, h1, ?_⟩
  rw [decide_eq_true_iff, hq1.2]
  have key : equLhs (fun x y => ComT.pairing e x y) (Com1.batchLinearMap equ.a_consts) cp.xcoms.coms
        (equ.b_consts.map fun a => a • (v1 + emb crs.g2_gen)) cp.ycoms.coms equ.gamma =
        tMSMEG1 e (v1 + Com2.linearMap crs.g2_gen) equ.target + (List.zipWith (fun x y => ComT.pairing e x y) crs.u pf.pi).sum
          + ComT.pairing e t0 v0 ↔
      gsEquation e (equ.a_consts.map emb) cp.xcoms.coms (equ.b_consts.map fun b => b • (v1 + emb crs.g2_gen))
        cp.ycoms.coms equ.gamma (tensor e (emb equ.target) (v1 + emb crs.g2_gen)) crs.u pf.pi [t0] [v0] := by
    simp only [gsEquation, List.zipWith_cons_cons, List.zipWith_nil_left, List.sum_cons, List.sum_nil, add_zero]
    rfl
  rw [key]
  constructor
  · exact fun h => ⟨_, _, _, _, _, hv, ht', h⟩
  · rintro ⟨_, _, _, _, _, hv'', ht'', h⟩
    rw [hv] at hv''; rw [ht'] at ht''
    cases hv''; cases ht''
    exact h

theorem MSMEG2.verify_equation {equ : MSMEG2 F G2} (h : equ.verify e sch cp crs = .ok r) :
    ∃ pf, cp.equ_proofs = [pf] ∧ (r = true ↔ equ.Equation e crs cp.xcoms.coms cp.ycoms.coms pf) := by
  rw [MSMEG2.verify_iff] at h
  obtain ⟨pf, h1, -, h3⟩ := h
  obtain ⟨a, b, t, q1, q2, ha, hb, ht, hq1, hq2, -, -, -, rfl⟩ := verifyCore_iff.mp h3
  cases hb
  obtain ⟨u1, hu1, rfl⟩ := linearMapMSMEG2_iff.mp ht
  obtain ⟨u0, u', hu⟩ := cons2_of_get hu1
  rw [ComT.pairingSum_iff] at hq2
  simp only [bind_ok_iff, pure_eq_ok, Except.ok.injEq] at hq1
  obtain ⟨u0', hu0, p0, hp0, rfl⟩ := hq1
  rw [hu] at hu0; cases hu0
  obtain ⟨p', hp'⟩ := cons_of_idx hp0
  obtain rfl := batchScalarLinearMap1_eq hu ha
  refine ⟨pf, h1, ?_⟩
  rw [decide_eq_true_iff, hq2.2]
  have key : equLhs (fun x y => ComT.pairing e x y) (equ.a_consts.map fun a => a • (u1 + emb crs.g1_gen)) cp.xcoms.coms
        (Com2.batchLinearMap equ.b_consts) cp.ycoms.coms equ.gamma =
        tMSMEG2 e (u1 + Com1.linearMap crs.g1_gen) equ.target + ComT.pairing e u0 p0 +
          (List.zipWith (fun x y => ComT.pairing e x y) pf.theta crs.v).sum ↔
      gsEquation e (equ.a_consts.map fun a => a • (u1 + emb crs.g1_gen)) cp.xcoms.coms (equ.b_consts.map emb)
        cp.ycoms.coms equ.gamma (tensor e (u1 + emb crs.g1_gen) (emb equ.target)) [u0] [p0] pf.theta crs.v := by
    simp only [gsEquation, List.zipWith_cons_cons, List.zipWith_nil_left, List.sum_cons, List.sum_nil, add_zero]
    rfl
  rw [key]
  constructor
  · exact fun h => ⟨_, _, _, _, _, hu, hp', h⟩
  · rintro ⟨_, _, _, _, _, hu'', hp'', h⟩
    rw [hu] at hu''; rw [hp'] at hp''
    cases hu''; cases hp''
    exact h

theorem QuadEqu.verify_equation {equ : QuadEqu F} (h : equ.verify e sch cp crs = .ok r) :
    ∃ pf, cp.equ_proofs = [pf] ∧ (r = true ↔ equ.Equation e crs cp.xcoms.coms cp.ycoms.coms pf) := by
  rw [QuadEqu.verify_iff] at h
  obtain ⟨pf, h1, -, h3⟩ := h
  obtain ⟨a, b, t, q1, q2, ha, hb, ht, hq1, hq2, -, -, -, rfl⟩ := verifyCore_iff.mp h3
  obtain ⟨u1, v1, hu1, hv1, rfl⟩ := linearMapQuad_iff.mp ht
  obtain ⟨u0, u', hu⟩ := cons2_of_get hu1
  obtain ⟨v0, v', hv⟩ := cons2_of_get hv1
  simp only [bind_ok_iff, pure_eq_ok, Except.ok.injEq] at hq1 hq2
  obtain ⟨u0', hu0, p0, hp0, rfl⟩ := hq1
  rw [hu] at hu0; cases hu0
  obtain ⟨p', hp'⟩ := cons_of_idx hp0
  obtain ⟨t0, ht0, v0', hv0, rfl⟩ := hq2
  rw [hv] at hv0; cases hv0
  obtain ⟨t', ht'⟩ := cons_of_idx ht0
  obtain rfl := batchScalarLinearMap1_eq hu ha
  obtain rfl := batchScalarLinearMap2_eq hv hb
  refine ⟨pf, h1, ?_⟩
  rw [decide_eq_true_iff]
  have key : equLhs (fun x y => ComT.pairing e x y) (equ.a_consts.map fun a => a • (u1 + emb crs.g1_gen)) cp.xcoms.coms
        (equ.b_consts.map fun b => b • (v1 + emb crs.g2_gen)) cp.ycoms.coms equ.gamma =
        tQuad e (u1 + Com1.linearMap crs.g1_gen) (v1 + Com2.linearMap crs.g2_gen) equ.target + ComT.pairing e u0 p0 +
          ComT.pairing e t0 v0 ↔
      gsEquation e (equ.a_consts.map fun a => a • (u1 + emb crs.g1_gen)) cp.xcoms.coms
        (equ.b_consts.map fun b => b • (v1 + emb crs.g2_gen))
        cp.ycoms.coms equ.gamma (equ.target • tensor e (u1 + emb crs.g1_gen) (v1 + emb crs.g2_gen)) [u0] [p0] [t0] [v0] := by
    simp only [gsEquation, List.zipWith_cons_cons, List.zipWith_nil_left, List.sum_cons, List.sum_nil, add_zero]
    rfl
  rw [key]
  constructor
  · exact fun h => ⟨_, _, _, _, _, _, _, _, _, _, hu, hv, hp', ht', h⟩
  · rintro ⟨_, _, _, _, _, _, _, _, _, _, hu'', hv'', hp'', ht'', h⟩
    rw [hu] at hu''; rw [hv] at hv''; rw [hp'] at hp''; rw [ht'] at ht''
    cases hu''; cases hv''; cases hp''; cases ht''
    exact h

end GS
