import Verif.Lemmas.Accept
import Verif.Props.Domains
import Verif.Props.Completeness

/-!
# C53: `verify` decides the Groth-Sahai verification equation

The equations are in `Verif/Spec/Accept.lean`. When `verify` returns is C37.
-/

set_option linter.unusedSectionVars false

namespace GS
variable {F G1 G2 GT : Type} [Field F] [AddCommGroup G1] [Module F G1] [AddCommGroup G2] [Module F G2]
  [AddCommGroup GT] [Module F GT] {e : G1 →ₗ[F] G2 →ₗ[F] GT} {crs : CRS G1 G2 GT}

section
variable [DecidableEq GT] (cp : CProof F G1 G2) (sch : Scheduler) (r : Bool)

/-- C53, PPE. -/
theorem C53_ppe (equ : PPE F G1 G2 GT) (h : equ.verify e sch cp crs = .ok r) :
    ∃ pf, cp.equ_proofs = [pf] ∧ (r = true ↔ equ.Equation e crs cp.xcoms.coms cp.ycoms.coms pf) :=
  PPE.verify_equation h

/-- C53, MSMEG1. -/
theorem C53_msmeg1 (equ : MSMEG1 F G1) (h : equ.verify e sch cp crs = .ok r) :
    ∃ pf, cp.equ_proofs = [pf] ∧ (r = true ↔ equ.Equation e crs cp.xcoms.coms cp.ycoms.coms pf) :=
  MSMEG1.verify_equation h

/-- C53, MSMEG2. -/
theorem C53_msmeg2 (equ : MSMEG2 F G2) (h : equ.verify e sch cp crs = .ok r) :
    ∃ pf, cp.equ_proofs = [pf] ∧ (r = true ↔ equ.Equation e crs cp.xcoms.coms cp.ycoms.coms pf) :=
  MSMEG2.verify_equation h

/-- C53, QuadEqu. -/
theorem C53_quad (equ : QuadEqu F) (h : equ.verify e sch cp crs = .ok r) :
    ∃ pf, cp.equ_proofs = [pf] ∧ (r = true ↔ equ.Equation e crs cp.xcoms.coms cp.ycoms.coms pf) :=
  QuadEqu.verify_equation h

example := C53_ppe Ex.ppe7_msg seqSched true Ex.ppe7 Ex.ppe7_accepted
example := C53_msmeg1 Ex.msm1_7_msg seqSched true Ex.msm1_7 Ex.msm1_7_accepted
example := C53_msmeg2 Ex.msm2_7_msg seqSched true Ex.msm2_7 Ex.msm2_7_accepted
example := C53_quad Ex.quad7_msg seqSched true Ex.quad7 Ex.quad7_accepted

/-- Both results occur. -/
example : (∃ cp, Ex.ppe7.verify Ex.e7 sch cp Ex.crs7 = .ok true) ∧
    ∃ cp, Ex.ppe7.verify Ex.e7 sch cp Ex.crs7 = .ok false := by
  obtain ⟨cp, _, b, -, h, hb⟩ := C09_ppe Ex.e7 Ex.ppe7 [2] [3, 4] Ex.crs7 (0 : Nat) (fun _ => sch) sch (by simp) (by simp)
    Ex.ppe7_dims rfl rfl
  obtain ⟨cp', _, b', -, h', hb'⟩ := C09_ppe Ex.e7 Ex.ppe7 [0] [0, 0] Ex.crs7 (0 : Nat) (fun _ => sch) sch (by simp)
    (by simp) Ex.ppe7_dims rfl rfl
  rw [hb.mpr Ex.ppe7_holds] at h
  rw [Bool.eq_false_iff.mpr fun hb0 => Ex.ppe7_fails (hb'.mp hb0)] at h'
  exact ⟨⟨cp, h⟩, cp', h'⟩

end

/-! ### Proofs of the right shape -/

section
variable [DecidableEq GT] {cp : CProof F G1 G2} {sch : Scheduler} {m n : Nat}

theorem gammaDom_matOf (hm : 0 < m) (hn : 0 < n) (γ : Fin m → Fin n → F) : GammaDom m n (matOf γ) := by
  refine .inr ⟨hm, hn, by simp [matOf], ?_, ?_⟩
  · intro r hr
    have := List.mem_of_mem_head? hr
    simp only [matOf, List.mem_ofFn] at this
    obtain ⟨i, rfl⟩ := this
    simp
  · intro r hr
    simp only [matOf, List.mem_ofFn] at hr
    obtain ⟨i, rfl⟩ := hr
    simp

/-- The verification equation for `w`. -/
def coreEquation (e : G1 →ₗ[F] G2 →ₗ[F] GT) {p q : Nat} (a : Fin n → Com G1) (b : Fin m → Com G2)
    (γ : Fin m → Fin n → F) (τ : ComT GT) (u : Fin p → Com G1) (v : Fin q → Com G2)
    (w : (Fin m → Com G1) × (Fin n → Com G2) × (Fin p → Com G2) × (Fin q → Com G1)) : Prop :=
  (∑ j, ComT.pairL e (a j) (w.2.1 j)) + (∑ i, ComT.pairL e (w.1 i) (b i)) +
      (∑ i, ComT.pairL e (w.1 i) (∑ j, γ i j • w.2.1 j)) =
    τ + (∑ k, ComT.pairL e (u k) (w.2.2.1 k)) + ∑ l, ComT.pairL e (w.2.2.2 l) (v l)

theorem gsEquation_core {p q : Nat} (a : Fin n → Com G1) (b : Fin m → Com G2)
    (γ : Fin m → Fin n → F) (τ : ComT GT) (u : Fin p → Com G1) (v : Fin q → Com G2)
    (w : (Fin m → Com G1) × (Fin n → Com G2) × (Fin p → Com G2) × (Fin q → Com G1)) :
    gsEquation e (List.ofFn a) (List.ofFn w.1) (List.ofFn b) (List.ofFn w.2.1) (matOf γ) τ (List.ofFn u)
      (List.ofFn w.2.2.1) (List.ofFn w.2.2.2) (List.ofFn v) ↔ coreEquation e a b γ τ u v w := by
  simp only [gsEquation, coreEquation, equLhs_ofFn, zipWith_ofFn, List.sum_ofFn, tensor_eq, map_sum, map_smul]

theorem publicPart_pub {p q : Nat} {ty : EquType}
    {w : (Fin m → Com G1) × (Fin n → Com G2) × (Fin p → Com G2) × (Fin q → Com G1)}
    (h : cp.publicPart = pub ty w) : cp.xcoms.coms = List.ofFn w.1 ∧ cp.ycoms.coms = List.ofFn w.2.1 ∧
      ∃ pf, cp.equ_proofs = [pf] ∧ pf.pi = List.ofFn w.2.2.1 ∧ pf.theta = List.ofFn w.2.2.2 ∧ pf.equ_type = ty := by
  simp only [CProof.publicPart, pub, Prod.mk.injEq] at h
  obtain ⟨h1, h2, h3⟩ := h
  refine ⟨h1, h2, ?_⟩
  rcases hp : cp.equ_proofs with _ | ⟨pf, l⟩
  · simp [hp] at h3
  · simp only [hp, List.map_cons, List.cons.injEq, List.map_eq_nil_iff, Prod.mk.injEq] at h3
    obtain ⟨⟨h4, h5, h6⟩, rfl⟩ := h3
    exact ⟨pf, rfl, h4, h5, h6⟩

theorem PPE.verify_pub {equ : PPE F G1 G2 GT} (hm : 0 < m) (hn : 0 < n) {a : Fin n → G1} {b : Fin m → G2}
    {γ : Fin m → Fin n → F} (ha : equ.a_consts = List.ofFn a) (hb : equ.b_consts = List.ofFn b)
    (hγ : equ.gamma = matOf γ) {u0 u1 : Com G1} {v0 v1 : Com G2} (hu : crs.u = [u0, u1]) (hv : crs.v = [v0, v1])
    {w : (Fin m → Com G1) × (Fin n → Com G2) × (Fin 2 → Com G2) × (Fin 2 → Com G1)}
    (h : cp.publicPart = pub .PairingProduct w) :
    ∃ r, equ.verify e sch cp crs = .ok r ∧ (r = true ↔ coreEquation e (fun j => i1 (F := F) (a j))
      (fun i => i2 (F := F) (b i)) γ (tPPE (F := F) equ.target) ![u0, u1] ![v0, v1] w) := by
  obtain ⟨h1, h2, pf, hpf, hpi, hth, hty⟩ := publicPart_pub h
  obtain ⟨r, hr⟩ := (C37_ppe e sch cp crs equ).mpr ⟨pf, hpf, hty, by simp [ha, h2], by simp [hb, h1], by
    rw [h1, h2, hγ]; simpa using gammaDom_matOf hm hn γ, by simp [hpi, hu], by simp [hth, hv]⟩
  obtain ⟨pf', hpf', h3⟩ := C53_ppe cp sch r equ hr
  rw [hpf] at hpf'; cases hpf'
  refine ⟨r, hr, h3.trans ?_⟩
  rw [PPE.Equation, ha, hb, hγ, h1, h2, hpi, hth, hu, hv, List.map_ofFn, List.map_ofFn, ofFn2 u0, ofFn2 v0]
  exact gsEquation_core ..

theorem MSMEG1.verify_pub {equ : MSMEG1 F G1} (hm : 0 < m) (hn : 0 < n) {a : Fin n → G1} {b : Fin m → F}
    {γ : Fin m → Fin n → F} (ha : equ.a_consts = List.ofFn a) (hb : equ.b_consts = List.ofFn b)
    (hγ : equ.gamma = matOf γ) {u0 u1 : Com G1} {v0 v1 : Com G2} (hu : crs.u = [u0, u1]) (hv : crs.v = [v0, v1])
    {w : (Fin m → Com G1) × (Fin n → Com G2) × (Fin 2 → Com G2) × (Fin 1 → Com G1)}
    (h : cp.publicPart = pub .MultiScalarG1 w) :
    ∃ r, equ.verify e sch cp crs = .ok r ∧ (r = true ↔ coreEquation e (fun j => i1 (F := F) (a j))
      (fun i => b i • (v1 + ⟨0, crs.g2_gen⟩)) γ (tMSMEG1 e (v1 + ⟨0, crs.g2_gen⟩) equ.target) ![u0, u1] ![v0] w) := by
  obtain ⟨h1, h2, pf, hpf, hpi, hth, hty⟩ := publicPart_pub h
  obtain ⟨r, hr⟩ := (C37_msmeg1 e sch cp crs equ).mpr ⟨pf, hpf, hty, by simp [ha, h2], by simp [hb, h1], by
    rw [h1, h2, hγ]; simpa using gammaDom_matOf hm hn γ, by simp [hpi, hu], by simp [hth], by simp [hv]⟩
  obtain ⟨pf', hpf', h3⟩ := C53_msmeg1 cp sch r equ hr
  rw [hpf] at hpf'; cases hpf'
  refine ⟨r, hr, h3.trans ?_⟩
  have hth' : pf.theta = [w.2.2.2 0] := by rw [hth]; simp [List.ofFn_succ]
  rw [← gsEquation_core, MSMEG1.Equation, hv, hth', ha, hb, hγ, h1, h2, hpi, hu, ← ofFn2 u0,
    ← ofFn1 v0, show List.ofFn w.2.2.2 = [w.2.2.2 0] by simp [List.ofFn_succ]]
  simp only [List.map_ofFn, Function.comp_def]
  constructor
  · rintro ⟨_, _, _, _, _, h4, h5, h6⟩
    cases h4; cases h5; exact h6
  · exact fun h => ⟨_, _, _, _, _, rfl, rfl, h⟩

theorem MSMEG2.verify_pub {equ : MSMEG2 F G2} (hm : 0 < m) (hn : 0 < n) {a : Fin n → F} {b : Fin m → G2}
    {γ : Fin m → Fin n → F} (ha : equ.a_consts = List.ofFn a) (hb : equ.b_consts = List.ofFn b)
    (hγ : equ.gamma = matOf γ) {u0 u1 : Com G1} {v0 v1 : Com G2} (hu : crs.u = [u0, u1]) (hv : crs.v = [v0, v1])
    {w : (Fin m → Com G1) × (Fin n → Com G2) × (Fin 1 → Com G2) × (Fin 2 → Com G1)}
    (h : cp.publicPart = pub .MultiScalarG2 w) :
    ∃ r, equ.verify e sch cp crs = .ok r ∧ (r = true ↔ coreEquation e (fun j => a j • (u1 + ⟨0, crs.g1_gen⟩))
      (fun i => i2 (F := F) (b i)) γ (tMSMEG2 e (u1 + ⟨0, crs.g1_gen⟩) equ.target) ![u0] ![v0, v1] w) := by
  obtain ⟨h1, h2, pf, hpf, hpi, hth, hty⟩ := publicPart_pub h
  obtain ⟨r, hr⟩ := (C37_msmeg2 e sch cp crs equ).mpr ⟨pf, hpf, hty, by simp [ha, h2], by simp [hb, h1], by
    rw [h1, h2, hγ]; simpa using gammaDom_matOf hm hn γ, by simp [hpi], by simp [hu], by simp [hth, hv]⟩
  obtain ⟨pf', hpf', h3⟩ := C53_msmeg2 cp sch r equ hr
  rw [hpf] at hpf'; cases hpf'
  refine ⟨r, hr, h3.trans ?_⟩
  have hpi' : pf.pi = [w.2.2.1 0] := by rw [hpi]; simp [List.ofFn_succ]
  rw [← gsEquation_core, MSMEG2.Equation, hv, hpi', ha, hb, hγ, h1, h2, hth, hu, ← ofFn2 v0,
    ← ofFn1 u0, show List.ofFn w.2.2.1 = [w.2.2.1 0] by simp [List.ofFn_succ]]
  simp only [List.map_ofFn, Function.comp_def]
  constructor
  · rintro ⟨_, _, _, _, _, h4, h5, h6⟩
    cases h4; cases h5; exact h6
  · exact fun h => ⟨_, _, _, _, _, rfl, rfl, h⟩

theorem QuadEqu.verify_pub {equ : QuadEqu F} (hm : 0 < m) (hn : 0 < n) {a : Fin n → F} {b : Fin m → F}
    {γ : Fin m → Fin n → F} (ha : equ.a_consts = List.ofFn a) (hb : equ.b_consts = List.ofFn b)
    (hγ : equ.gamma = matOf γ) {u0 u1 : Com G1} {v0 v1 : Com G2} (hu : crs.u = [u0, u1]) (hv : crs.v = [v0, v1])
    {w : (Fin m → Com G1) × (Fin n → Com G2) × (Fin 1 → Com G2) × (Fin 1 → Com G1)}
    (h : cp.publicPart = pub .Quadratic w) :
    ∃ r, equ.verify e sch cp crs = .ok r ∧ (r = true ↔ coreEquation e (fun j => a j • (u1 + ⟨0, crs.g1_gen⟩))
      (fun i => b i • (v1 + ⟨0, crs.g2_gen⟩)) γ (tQuad e (u1 + ⟨0, crs.g1_gen⟩) (v1 + ⟨0, crs.g2_gen⟩) equ.target)
      ![u0] ![v0] w) := by
  obtain ⟨h1, h2, pf, hpf, hpi, hth, hty⟩ := publicPart_pub h
  obtain ⟨r, hr⟩ := (C37_quad e sch cp crs equ).mpr ⟨pf, hpf, hty, by simp [ha, h2], by simp [hb, h1], by
    rw [h1, h2, hγ]; simpa using gammaDom_matOf hm hn γ, by simp [hpi], by simp [hu], by simp [hth], by simp [hv]⟩
  obtain ⟨pf', hpf', h3⟩ := C53_quad cp sch r equ hr
  rw [hpf] at hpf'; cases hpf'
  refine ⟨r, hr, h3.trans ?_⟩
  have hpi' : pf.pi = [w.2.2.1 0] := by rw [hpi]; simp [List.ofFn_succ]
  have hth' : pf.theta = [w.2.2.2 0] := by rw [hth]; simp [List.ofFn_succ]
  rw [← gsEquation_core, QuadEqu.Equation, hv, hpi', hth', ha, hb, hγ, h1, h2, hu,
    ← ofFn1 v0, ← ofFn1 u0, show List.ofFn w.2.2.1 = [w.2.2.1 0] by simp [List.ofFn_succ],
    show List.ofFn w.2.2.2 = [w.2.2.2 0] by simp [List.ofFn_succ]]
  simp only [List.map_ofFn, Function.comp_def]
  constructor
  · rintro ⟨_, _, _, _, _, _, _, _, _, _, h4, h5, h6, h7, h8⟩
    cases h4; cases h5; cases h6; cases h7; exact h8
  · exact fun h => ⟨_, _, _, _, _, _, _, _, _, _, rfl, rfl, rfl, rfl, h⟩

end
end GS
