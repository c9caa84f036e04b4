import Verif.Lemmas.Tamper
import Verif.Props.Verification
import Verif.Props.Keys

/-!
# C80: changing one element of an accepted proof

One element of the proof, of the commitments or of the equation is replaced (`List.set`). `AcceptsIff`, `coefX` and
`coefY` are in `Verif/Spec/Tamper.lean`.
-/

set_option linter.unusedSectionVars false

namespace GS
variable {F G1 G2 GT : Type} [Field F] [AddCommGroup G1] [Module F G1] [AddCommGroup G2] [Module F G2]
  [AddCommGroup GT] [Module F GT] [DecidableEq GT] {e : G1 →ₗ[F] G2 →ₗ[F] GT} {crs : CRS G1 G2 GT}
  {xc : Commit F G1} {yc : Commit F G2} {pf : EquProof F G1 G2} {sch : Scheduler}

theorem gammaDom_set {m n : Nat} {gamma : Matrix F} {i j : Nat} {row : List F} {g : F} (hr : gamma[i]? = some row)
    (h : GammaDom m n gamma) : GammaDom m n (gamma.set i (row.set j g)) := by
  rcases h with ⟨rfl, h⟩ | ⟨h1, h2, h3, h4, h5⟩
  · refine .inl ⟨rfl, ?_⟩
    rcases h with h | h | ⟨l, h⟩
    · exact .inl h
    · exact .inr (.inl (by simp [h]))
    · refine .inr (.inr ?_)
      subst h
      cases i with
      | zero => simp at hr; subst hr; exact ⟨l, by simp⟩
      | succ i => exact ⟨l.set i (row.set j g), by simp⟩
  · refine .inr ⟨h1, h2, by simpa using h3, ?_, ?_⟩
    · intro r hr'
      rcases gamma with _ | ⟨r0, gamma⟩
      · simp at hr
      cases i with
      | zero => simp at hr hr'; subst hr; subst hr'; simpa using h4
      | succ i => simp at hr'; subst hr'; exact h4 _ rfl
    · intro r hr'
      rcases List.mem_or_eq_of_mem_set hr' with h | rfl
      · exact h5 r h
      · rw [List.length_set]; exact h5 row (List.mem_of_getElem? hr)

theorem AcceptsIff.congr {x : Res Bool} {p q : Prop} (h : AcceptsIff x p) (hpq : p ↔ q) : AcceptsIff x q := by
  obtain ⟨b, h1, h2⟩ := h
  exact ⟨b, h1, h2.trans hpq⟩

theorem exists_get0 {α : Type} {l : List α} (h : l ≠ []) : ∃ a, l[0]? = some a := by
  cases l with
  | nil => exact absurd rfl h
  | cons a l => exact ⟨a, rfl⟩

theorem set0_get {α : Type} {l : List α} {a b : α} (h : l[0]? = some a) : (l.set 0 b)[0]? = some b := by
  cases l with
  | nil => simp at h
  | cons a l => rfl

theorem idx_of_get {α : Type} {l : List α} {a : α} (h : l[0]? = some a) : idx l 0 = .ok a := by
  cases l with
  | nil => simp at h
  | cons a l => simp at h; simp [h]

theorem emb_eq_iff {G : Type} [AddCommGroup G] {a b : G} : (emb a : Com G) = emb b ↔ a = b := by
  simp [emb]

theorem emb_sub {G : Type} [AddCommGroup G] (a b : G) : (emb (a - b) : Com G) = emb a - emb b := by
  apply Com.ext <;> simp [emb]

theorem smul_eq_iff' {G : Type} [AddCommGroup G] [Module F G] {a b : F} {w : G} : a • w = b • w ↔ a = b ∨ w = 0 := by
  rw [← sub_eq_zero, ← sub_smul, smul_eq_zero, sub_eq_zero]

theorem or_swap3 {p q r : Prop} : (p ∨ q) ∨ r ↔ p ∨ r ∨ q := by tauto

/-! ### PPE -/

theorem PPE.acceptsIff {equ : PPE F G1 G2 GT} (ht : pf.equ_type = .PairingProduct)
    (ha : equ.a_consts.length = yc.coms.length) (hb : equ.b_consts.length = xc.coms.length)
    (hg : GammaDom xc.coms.length yc.coms.length equ.gamma) (hpi : pf.pi.length = crs.u.length) (hth : pf.theta.length = crs.v.length) :
    AcceptsIff (equ.verify e sch ⟨xc, yc, [pf]⟩ crs) (equ.Equation e crs xc.coms yc.coms pf) := by
  obtain ⟨r, hr⟩ := (C37_ppe e sch ⟨xc, yc, [pf]⟩ crs equ).mpr ⟨pf, rfl, ht, ha, hb, hg, hpi, hth⟩
  obtain ⟨pf', hpf', h⟩ := C53_ppe ⟨xc, yc, [pf]⟩ sch r equ hr
  cases hpf'
  exact ⟨r, hr, h⟩

theorem PPE.accepted_dom {equ : PPE F G1 G2 GT} (h : equ.verify e sch ⟨xc, yc, [pf]⟩ crs = .ok true) :
    pf.equ_type = .PairingProduct ∧ equ.a_consts.length = yc.coms.length ∧ equ.b_consts.length = xc.coms.length ∧
    GammaDom xc.coms.length yc.coms.length equ.gamma ∧ (pf.pi.length = crs.u.length) ∧ (pf.theta.length = crs.v.length) ∧
    equ.Equation e crs xc.coms yc.coms pf := by
  obtain ⟨pf', hpf', h1, h2, h3, h4, h5⟩ := (C37_ppe e sch ⟨xc, yc, [pf]⟩ crs equ).mp ⟨_, h⟩
  cases hpf'
  obtain ⟨pf', hpf', h6⟩ := C53_ppe ⟨xc, yc, [pf]⟩ sch true equ h
  cases hpf'
  exact ⟨h1, h2, h3, h4, h5.1, h5.2, h6.mp rfl⟩

/-- C80, PPE, one element of the proof. -/
theorem C80_ppe_proof (he : PrimeGroups e) (equ : PPE F G1 G2 GT)
    (h : equ.verify e sch ⟨xc, yc, [pf]⟩ crs = .ok true) (sch' : Scheduler) :
    (∀ k u0 p0 p, crs.u[k]? = some u0 → pf.pi[k]? = some p0 →
      AcceptsIff (equ.verify e sch' ⟨xc, yc, [{ pf with pi := pf.pi.set k p }]⟩ crs) (p = p0 ∨ u0 = 0)) ∧
    (∀ k v0 q0 q, crs.v[k]? = some v0 → pf.theta[k]? = some q0 →
      AcceptsIff (equ.verify e sch' ⟨xc, yc, [{ pf with theta := pf.theta.set k q }]⟩ crs) (q = q0 ∨ v0 = 0)) := by
  obtain ⟨hty, ha, hb, hg, hpi, hth, heq⟩ := PPE.accepted_dom h
  unfold PPE.Equation at heq
  constructor
  · intro k u0 p0 p hu hpk
    refine (PPE.acceptsIff (pf := { pf with pi := pf.pi.set k p }) (sch := sch') hty ha hb hg (by simpa using hpi) hth).congr ?_
    exact gsEquation_set_pi he heq hu hpk
  · intro k v0 q0 q hv hqk
    refine (PPE.acceptsIff (pf := { pf with theta := pf.theta.set k q }) (sch := sch') hty ha hb hg hpi (by simpa using hth)).congr ?_
    exact gsEquation_set_theta he heq hv hqk

/-- C80, PPE, one commitment. -/
theorem C80_ppe_commitment (he : PrimeGroups e) (equ : PPE F G1 G2 GT)
    (h : equ.verify e sch ⟨xc, yc, [pf]⟩ crs = .ok true) (sch' : Scheduler) :
    (∀ i c0 c b row, xc.coms[i]? = some c0 → equ.b_consts[i]? = some b → equ.gamma[i]? = some row →
      AcceptsIff (equ.verify e sch' ⟨{ xc with coms := xc.coms.set i c }, yc, [pf]⟩ crs)
        (c = c0 ∨ coefX (emb b) row yc.coms = 0)) ∧
    (∀ j d0 d a, yc.coms[j]? = some d0 → equ.a_consts[j]? = some a →
      AcceptsIff (equ.verify e sch' ⟨xc, { yc with coms := yc.coms.set j d }, [pf]⟩ crs)
        (d = d0 ∨ coefY (emb a) equ.gamma j xc.coms = 0)) := by
  obtain ⟨hty, ha, hb, hg, hpi, hth, heq⟩ := PPE.accepted_dom h
  unfold PPE.Equation at heq
  constructor
  · intro i c0 c b row hc hbi hr
    refine (PPE.acceptsIff (xc := { xc with coms := xc.coms.set i c }) (sch := sch') hty ha (by simpa using hb) (by simpa using hg) hpi hth).congr ?_
    exact gsEquation_set_x he heq hc (by simp [hbi]) hr
  · intro j d0 d a hd haj
    refine (PPE.acceptsIff (yc := { yc with coms := yc.coms.set j d }) (sch := sch') hty (by simpa using ha) hb (by simpa using hg) hpi hth).congr ?_
    exact gsEquation_set_y he heq hd (by simp [haj])

/-- C80, PPE, one element of the equation. -/
theorem C80_ppe_equation (he : PrimeGroups e) (equ : PPE F G1 G2 GT)
    (h : equ.verify e sch ⟨xc, yc, [pf]⟩ crs = .ok true) (sch' : Scheduler) :
    (∀ j a0 a d, equ.a_consts[j]? = some a0 → yc.coms[j]? = some d →
      AcceptsIff (({ equ with a_consts := equ.a_consts.set j a } : PPE F G1 G2 GT).verify e sch' ⟨xc, yc, [pf]⟩ crs)
        (a = a0 ∨ d = 0)) ∧
    (∀ i b0 b c, equ.b_consts[i]? = some b0 → xc.coms[i]? = some c →
      AcceptsIff (({ equ with b_consts := equ.b_consts.set i b } : PPE F G1 G2 GT).verify e sch' ⟨xc, yc, [pf]⟩ crs)
        (b = b0 ∨ c = 0)) ∧
    (∀ i j row g0 g c d, equ.gamma[i]? = some row → row[j]? = some g0 → xc.coms[i]? = some c → yc.coms[j]? = some d →
      AcceptsIff (({ equ with gamma := equ.gamma.set i (row.set j g) } : PPE F G1 G2 GT).verify e sch' ⟨xc, yc, [pf]⟩ crs)
        (g = g0 ∨ c = 0 ∨ d = 0)) ∧
    ∀ t, AcceptsIff (({ equ with target := t } : PPE F G1 G2 GT).verify e sch' ⟨xc, yc, [pf]⟩ crs)
      (t = equ.target) := by
  obtain ⟨hty, ha, hb, hg, hpi, hth, heq⟩ := PPE.accepted_dom h
  unfold PPE.Equation at heq
  refine ⟨?_, ?_, ?_, ?_⟩
  · intro j a0 a d haj hd
    refine (PPE.acceptsIff (equ := { equ with a_consts := equ.a_consts.set j a }) (sch := sch') hty (by simpa using ha) hb hg hpi hth).congr ?_
    unfold PPE.Equation
    simp only [List.map_set]
    refine (gsEquation_set_a he heq (x0 := emb a0) (by simp [haj]) hd).trans ?_
    exact emb_eq_iff.or Iff.rfl
  · intro i b0 b c hbi hc
    refine (PPE.acceptsIff (equ := { equ with b_consts := equ.b_consts.set i b }) (sch := sch') hty ha (by simpa using hb) hg hpi hth).congr ?_
    unfold PPE.Equation
    simp only [List.map_set]
    refine (gsEquation_set_b he heq (y0 := emb b0) (by simp [hbi]) hc).trans ?_
    exact emb_eq_iff.or Iff.rfl
  · intro i j row g0 g c d hr hg0 hc hd
    refine (PPE.acceptsIff (equ := { equ with gamma := equ.gamma.set i (row.set j g) }) (sch := sch') hty ha hb (gammaDom_set hr hg) hpi hth).congr ?_
    exact gsEquation_set_gamma he heq hr hg0 hc hd
  · intro t
    refine (PPE.acceptsIff (equ := { equ with target := t }) (sch := sch') hty ha hb hg hpi hth).congr ?_
    have := gsEquation_set_target (δ := ⟨0, 0, 0, t - equ.target⟩) heq
    have ht : (⟨0, 0, 0, equ.target⟩ + ⟨0, 0, 0, t - equ.target⟩ : ComT GT) = ⟨0, 0, 0, t⟩ := by
      apply ComT.ext <;> simp
    rw [ht] at this
    refine this.trans ?_
    rw [ComT.ext_iff]
    simp [sub_eq_zero]

/-! ### MSMEG1 -/

theorem MSMEG1.acceptsIff {equ : MSMEG1 F G1} (ht : pf.equ_type = .MultiScalarG1)
    (ha : equ.a_consts.length = yc.coms.length) (hb : equ.b_consts.length = xc.coms.length)
    (hg : GammaDom xc.coms.length yc.coms.length equ.gamma) (hpi : pf.pi.length = crs.u.length) (hth : pf.theta ≠ [] ∧ 2 ≤ crs.v.length) :
    AcceptsIff (equ.verify e sch ⟨xc, yc, [pf]⟩ crs) (equ.Equation e crs xc.coms yc.coms pf) := by
  obtain ⟨r, hr⟩ := (C37_msmeg1 e sch ⟨xc, yc, [pf]⟩ crs equ).mpr ⟨pf, rfl, ht, ha, hb, hg, hpi, hth.1, hth.2⟩
  obtain ⟨pf', hpf', h⟩ := C53_msmeg1 ⟨xc, yc, [pf]⟩ sch r equ hr
  cases hpf'
  exact ⟨r, hr, h⟩

theorem MSMEG1.accepted_dom {equ : MSMEG1 F G1} (h : equ.verify e sch ⟨xc, yc, [pf]⟩ crs = .ok true) :
    pf.equ_type = .MultiScalarG1 ∧ equ.a_consts.length = yc.coms.length ∧ equ.b_consts.length = xc.coms.length ∧
    GammaDom xc.coms.length yc.coms.length equ.gamma ∧ (pf.pi.length = crs.u.length) ∧ (pf.theta ≠ [] ∧ 2 ≤ crs.v.length) ∧
    equ.Equation e crs xc.coms yc.coms pf := by
  obtain ⟨pf', hpf', h1, h2, h3, h4, h5⟩ := (C37_msmeg1 e sch ⟨xc, yc, [pf]⟩ crs equ).mp ⟨_, h⟩
  cases hpf'
  obtain ⟨pf', hpf', h6⟩ := C53_msmeg1 ⟨xc, yc, [pf]⟩ sch true equ h
  cases hpf'
  exact ⟨h1, h2, h3, h4, h5.1, h5.2, h6.mp rfl⟩

theorem MSMEG1.equation_iff {equ : MSMEG1 F G1} {c : List (Com G1)} {d : List (Com G2)} {v0 v1 : Com G2} (hv0 : crs.v[0]? = some v0) (hv1 : crs.v[1]? = some v1) {q0 : Com G1} (hq : pf.theta[0]? = some q0) :
    equ.Equation e crs c d pf ↔
      gsEquation e (equ.a_consts.map emb) c (equ.b_consts.map fun b => b • (v1 + emb crs.g2_gen)) d equ.gamma (tensor e (emb equ.target) (v1 + emb crs.g2_gen)) crs.u pf.pi [q0] [v0] := by
  obtain ⟨v0', v', hv⟩ := cons2_of_get hv1
  rw [hv] at hv0; cases hv0
  obtain ⟨q', hq'⟩ := cons_of_idx (idx_of_get hq)
  constructor
  · rintro ⟨_, _, _, _, _, k0, k1, h⟩
    rw [hv] at k0; cases k0
    rw [hq'] at k1; cases k1
    exact h
  · exact fun h => ⟨_, _, _, _, _, hv, hq', h⟩

/-- C80, MSMEG1, one element of the proof. -/
theorem C80_msmeg1_proof (he : PrimeGroups e) (equ : MSMEG1 F G1) {v0 v1 : Com G2} (hv0 : crs.v[0]? = some v0) (hv1 : crs.v[1]? = some v1)
    (h : equ.verify e sch ⟨xc, yc, [pf]⟩ crs = .ok true) (sch' : Scheduler) :
    (∀ k u0 p0 p, crs.u[k]? = some u0 → pf.pi[k]? = some p0 →
      AcceptsIff (equ.verify e sch' ⟨xc, yc, [{ pf with pi := pf.pi.set k p }]⟩ crs) (p = p0 ∨ u0 = 0)) ∧
    (∀ q0 q, pf.theta[0]? = some q0 →
      AcceptsIff (equ.verify e sch' ⟨xc, yc, [{ pf with theta := pf.theta.set 0 q }]⟩ crs) (q = q0 ∨ v0 = 0)) := by
  obtain ⟨hty, ha, hb, hg, hpi, hth, heq⟩ := MSMEG1.accepted_dom h
  obtain ⟨q0, hq⟩ : ∃ q0, pf.theta[0]? = some q0 := exists_get0 hth.1
  have heq := (MSMEG1.equation_iff hv0 hv1 hq).mp heq
  constructor
  · intro k u0 p0 p hu hpk
    refine (MSMEG1.acceptsIff (pf := { pf with pi := pf.pi.set k p }) (sch := sch') hty ha hb hg (by simpa using hpi) hth).congr ?_
    refine (MSMEG1.equation_iff (pf := { pf with pi := pf.pi.set k p }) hv0 hv1 hq).trans ?_
    exact gsEquation_set_pi he heq hu hpk
  · intro q0' q hq'
    rw [hq] at hq'; cases hq'
    refine (MSMEG1.acceptsIff (pf := { pf with theta := pf.theta.set 0 q }) (sch := sch') hty ha hb hg hpi ⟨by simpa using hth.1, hth.2⟩).congr ?_
    refine (MSMEG1.equation_iff (pf := { pf with theta := pf.theta.set 0 q }) (q0 := q) hv0 hv1 (set0_get hq)).trans ?_
    exact gsEquation_set_theta (k := 0) he heq rfl rfl

/-- C80, MSMEG1, one commitment. -/
theorem C80_msmeg1_commitment (he : PrimeGroups e) (equ : MSMEG1 F G1) {v0 v1 : Com G2} (hv0 : crs.v[0]? = some v0) (hv1 : crs.v[1]? = some v1)
    (h : equ.verify e sch ⟨xc, yc, [pf]⟩ crs = .ok true) (sch' : Scheduler) :
    (∀ i c0 c b row, xc.coms[i]? = some c0 → equ.b_consts[i]? = some b → equ.gamma[i]? = some row →
      AcceptsIff (equ.verify e sch' ⟨{ xc with coms := xc.coms.set i c }, yc, [pf]⟩ crs)
        (c = c0 ∨ coefX (b • (v1 + emb crs.g2_gen)) row yc.coms = 0)) ∧
    (∀ j d0 d a, yc.coms[j]? = some d0 → equ.a_consts[j]? = some a →
      AcceptsIff (equ.verify e sch' ⟨xc, { yc with coms := yc.coms.set j d }, [pf]⟩ crs)
        (d = d0 ∨ coefY (emb a) equ.gamma j xc.coms = 0)) := by
  obtain ⟨hty, ha, hb, hg, hpi, hth, heq⟩ := MSMEG1.accepted_dom h
  obtain ⟨q0, hq⟩ : ∃ q0, pf.theta[0]? = some q0 := exists_get0 hth.1
  have heq := (MSMEG1.equation_iff hv0 hv1 hq).mp heq
  constructor
  · intro i c0 c b row hc hbi hr
    refine (MSMEG1.acceptsIff (xc := { xc with coms := xc.coms.set i c }) (sch := sch') hty ha (by simpa using hb) (by simpa using hg) hpi hth).congr ?_
    refine (MSMEG1.equation_iff hv0 hv1 hq).trans ?_
    exact gsEquation_set_x he heq hc (by simp [hbi]) hr
  · intro j d0 d a hd haj
    refine (MSMEG1.acceptsIff (yc := { yc with coms := yc.coms.set j d }) (sch := sch') hty (by simpa using ha) hb (by simpa using hg) hpi hth).congr ?_
    refine (MSMEG1.equation_iff hv0 hv1 hq).trans ?_
    exact gsEquation_set_y he heq hd (by simp [haj])

/-- C80, MSMEG1, one element of the equation. -/
theorem C80_msmeg1_equation (he : PrimeGroups e) (equ : MSMEG1 F G1) {v0 v1 : Com G2} (hv0 : crs.v[0]? = some v0) (hv1 : crs.v[1]? = some v1)
    (h : equ.verify e sch ⟨xc, yc, [pf]⟩ crs = .ok true) (sch' : Scheduler) :
    (∀ j a0 a d, equ.a_consts[j]? = some a0 → yc.coms[j]? = some d →
      AcceptsIff (({ equ with a_consts := equ.a_consts.set j a } : MSMEG1 F G1).verify e sch' ⟨xc, yc, [pf]⟩ crs)
        (a = a0 ∨ d = 0)) ∧
    (∀ i b0 b c, equ.b_consts[i]? = some b0 → xc.coms[i]? = some c →
      AcceptsIff (({ equ with b_consts := equ.b_consts.set i b } : MSMEG1 F G1).verify e sch' ⟨xc, yc, [pf]⟩ crs)
        (b = b0 ∨ c = 0 ∨ (v1 + emb crs.g2_gen) = 0)) ∧
    (∀ i j row g0 g c d, equ.gamma[i]? = some row → row[j]? = some g0 → xc.coms[i]? = some c → yc.coms[j]? = some d →
      AcceptsIff (({ equ with gamma := equ.gamma.set i (row.set j g) } : MSMEG1 F G1).verify e sch' ⟨xc, yc, [pf]⟩ crs)
        (g = g0 ∨ c = 0 ∨ d = 0)) ∧
    ∀ t, AcceptsIff (({ equ with target := t } : MSMEG1 F G1).verify e sch' ⟨xc, yc, [pf]⟩ crs)
      (t = equ.target ∨ (v1 + emb crs.g2_gen) = 0) := by
  obtain ⟨hty, ha, hb, hg, hpi, hth, heq⟩ := MSMEG1.accepted_dom h
  obtain ⟨q0, hq⟩ : ∃ q0, pf.theta[0]? = some q0 := exists_get0 hth.1
  have heq := (MSMEG1.equation_iff hv0 hv1 hq).mp heq
  refine ⟨?_, ?_, ?_, ?_⟩
  · intro j a0 a d haj hd
    refine (MSMEG1.acceptsIff (equ := { equ with a_consts := equ.a_consts.set j a }) (sch := sch') hty (by simpa using ha) hb hg hpi hth).congr ?_
    refine (MSMEG1.equation_iff (equ := { equ with a_consts := equ.a_consts.set j a }) hv0 hv1 hq).trans ?_
    simp only [List.map_set]
    refine (gsEquation_set_a he heq (x0 := emb a0) (by simp [haj]) hd).trans ?_
    exact emb_eq_iff.or Iff.rfl
  · intro i b0 b c hbi hc
    refine (MSMEG1.acceptsIff (equ := { equ with b_consts := equ.b_consts.set i b }) (sch := sch') hty ha (by simpa using hb) hg hpi hth).congr ?_
    refine (MSMEG1.equation_iff (equ := { equ with b_consts := equ.b_consts.set i b }) hv0 hv1 hq).trans ?_
    simp only [List.map_set]
    refine (gsEquation_set_b he heq (y0 := b0 • (v1 + emb crs.g2_gen)) (by simp [hbi]) hc).trans ?_
    exact (smul_eq_iff'.or Iff.rfl).trans or_swap3
  · intro i j row g0 g c d hr hg0 hc hd
    refine (MSMEG1.acceptsIff (equ := { equ with gamma := equ.gamma.set i (row.set j g) }) (sch := sch') hty ha hb (gammaDom_set hr hg) hpi hth).congr ?_
    refine (MSMEG1.equation_iff (equ := { equ with gamma := equ.gamma.set i (row.set j g) }) hv0 hv1 hq).trans ?_
    exact gsEquation_set_gamma he heq hr hg0 hc hd
  · intro t
    refine (MSMEG1.acceptsIff (equ := { equ with target := t }) (sch := sch') hty ha hb hg hpi hth).congr ?_
    refine (MSMEG1.equation_iff (equ := { equ with target := t }) hv0 hv1 hq).trans ?_
    have := gsEquation_set_target (δ := tensor e (emb (t - equ.target)) (v1 + emb crs.g2_gen)) heq
    have ht : tensor e (emb equ.target) (v1 + emb crs.g2_gen) + tensor e (emb (t - equ.target)) (v1 + emb crs.g2_gen) = tensor e (emb t) (v1 + emb crs.g2_gen) := by
      rw [emb_sub]; simp only [tensor_eq, map_sub, LinearMap.sub_apply]; abel
    rw [ht] at this
    refine this.trans ?_
    rw [tensor_eq_zero he, emb_sub, sub_eq_zero, emb_eq_iff]

/-! ### MSMEG2 -/

theorem MSMEG2.acceptsIff {equ : MSMEG2 F G2} (ht : pf.equ_type = .MultiScalarG2)
    (ha : equ.a_consts.length = yc.coms.length) (hb : equ.b_consts.length = xc.coms.length)
    (hg : GammaDom xc.coms.length yc.coms.length equ.gamma) (hpi : pf.pi ≠ [] ∧ 2 ≤ crs.u.length) (hth : pf.theta.length = crs.v.length) :
    AcceptsIff (equ.verify e sch ⟨xc, yc, [pf]⟩ crs) (equ.Equation e crs xc.coms yc.coms pf) := by
  obtain ⟨r, hr⟩ := (C37_msmeg2 e sch ⟨xc, yc, [pf]⟩ crs equ).mpr ⟨pf, rfl, ht, ha, hb, hg, hpi.1, hpi.2, hth⟩
  obtain ⟨pf', hpf', h⟩ := C53_msmeg2 ⟨xc, yc, [pf]⟩ sch r equ hr
  cases hpf'
  exact ⟨r, hr, h⟩

theorem MSMEG2.accepted_dom {equ : MSMEG2 F G2} (h : equ.verify e sch ⟨xc, yc, [pf]⟩ crs = .ok true) :
    pf.equ_type = .MultiScalarG2 ∧ equ.a_consts.length = yc.coms.length ∧ equ.b_consts.length = xc.coms.length ∧
    GammaDom xc.coms.length yc.coms.length equ.gamma ∧ (pf.pi ≠ [] ∧ 2 ≤ crs.u.length) ∧ (pf.theta.length = crs.v.length) ∧
    equ.Equation e crs xc.coms yc.coms pf := by
  obtain ⟨pf', hpf', h1, h2, h3, h4, h5⟩ := (C37_msmeg2 e sch ⟨xc, yc, [pf]⟩ crs equ).mp ⟨_, h⟩
  cases hpf'
  obtain ⟨pf', hpf', h6⟩ := C53_msmeg2 ⟨xc, yc, [pf]⟩ sch true equ h
  cases hpf'
  exact ⟨h1, h2, h3, h4, ⟨h5.1, h5.2.1⟩, h5.2.2, h6.mp rfl⟩

theorem MSMEG2.equation_iff {equ : MSMEG2 F G2} {c : List (Com G1)} {d : List (Com G2)} {u0 u1 : Com G1} (hu0 : crs.u[0]? = some u0) (hu1 : crs.u[1]? = some u1) {p0 : Com G2} (hp : pf.pi[0]? = some p0) :
    equ.Equation e crs c d pf ↔
      gsEquation e (equ.a_consts.map fun a => a • (u1 + emb crs.g1_gen)) c (equ.b_consts.map emb) d equ.gamma (tensor e (u1 + emb crs.g1_gen) (emb equ.target)) [u0] [p0] pf.theta crs.v := by
  obtain ⟨u0', u', hu⟩ := cons2_of_get hu1
  rw [hu] at hu0; cases hu0
  obtain ⟨p', hp'⟩ := cons_of_idx (idx_of_get hp)
  constructor
  · rintro ⟨_, _, _, _, _, k0, k1, h⟩
    rw [hu] at k0; cases k0
    rw [hp'] at k1; cases k1
    exact h
  · exact fun h => ⟨_, _, _, _, _, hu, hp', h⟩

/-- C80, MSMEG2, one element of the proof. -/
theorem C80_msmeg2_proof (he : PrimeGroups e) (equ : MSMEG2 F G2) {u0 u1 : Com G1} (hu0 : crs.u[0]? = some u0) (hu1 : crs.u[1]? = some u1)
    (h : equ.verify e sch ⟨xc, yc, [pf]⟩ crs = .ok true) (sch' : Scheduler) :
    (∀ p0 p, pf.pi[0]? = some p0 →
      AcceptsIff (equ.verify e sch' ⟨xc, yc, [{ pf with pi := pf.pi.set 0 p }]⟩ crs) (p = p0 ∨ u0 = 0)) ∧
    (∀ k v0 q0 q, crs.v[k]? = some v0 → pf.theta[k]? = some q0 →
      AcceptsIff (equ.verify e sch' ⟨xc, yc, [{ pf with theta := pf.theta.set k q }]⟩ crs) (q = q0 ∨ v0 = 0)) := by
  obtain ⟨hty, ha, hb, hg, hpi, hth, heq⟩ := MSMEG2.accepted_dom h
  obtain ⟨p0, hp⟩ : ∃ p0, pf.pi[0]? = some p0 := exists_get0 hpi.1
  have heq := (MSMEG2.equation_iff hu0 hu1 hp).mp heq
  constructor
  · intro p0' p hp'
    rw [hp] at hp'; cases hp'
    refine (MSMEG2.acceptsIff (pf := { pf with pi := pf.pi.set 0 p }) (sch := sch') hty ha hb hg ⟨by simpa using hpi.1, hpi.2⟩ hth).congr ?_
    refine (MSMEG2.equation_iff (pf := { pf with pi := pf.pi.set 0 p }) (p0 := p) hu0 hu1 (set0_get hp)).trans ?_
    exact gsEquation_set_pi (k := 0) he heq rfl rfl
  · intro k v0 q0 q hv hqk
    refine (MSMEG2.acceptsIff (pf := { pf with theta := pf.theta.set k q }) (sch := sch') hty ha hb hg hpi (by simpa using hth)).congr ?_
    refine (MSMEG2.equation_iff (pf := { pf with theta := pf.theta.set k q }) hu0 hu1 hp).trans ?_
    exact gsEquation_set_theta he heq hv hqk

/-- C80, MSMEG2, one commitment. -/
theorem C80_msmeg2_commitment (he : PrimeGroups e) (equ : MSMEG2 F G2) {u0 u1 : Com G1} (hu0 : crs.u[0]? = some u0) (hu1 : crs.u[1]? = some u1)
    (h : equ.verify e sch ⟨xc, yc, [pf]⟩ crs = .ok true) (sch' : Scheduler) :
    (∀ i c0 c b row, xc.coms[i]? = some c0 → equ.b_consts[i]? = some b → equ.gamma[i]? = some row →
      AcceptsIff (equ.verify e sch' ⟨{ xc with coms := xc.coms.set i c }, yc, [pf]⟩ crs)
        (c = c0 ∨ coefX (emb b) row yc.coms = 0)) ∧
    (∀ j d0 d a, yc.coms[j]? = some d0 → equ.a_consts[j]? = some a →
      AcceptsIff (equ.verify e sch' ⟨xc, { yc with coms := yc.coms.set j d }, [pf]⟩ crs)
        (d = d0 ∨ coefY (a • (u1 + emb crs.g1_gen)) equ.gamma j xc.coms = 0)) := by
  obtain ⟨hty, ha, hb, hg, hpi, hth, heq⟩ := MSMEG2.accepted_dom h
  obtain ⟨p0, hp⟩ : ∃ p0, pf.pi[0]? = some p0 := exists_get0 hpi.1
  have heq := (MSMEG2.equation_iff hu0 hu1 hp).mp heq
  constructor
  · intro i c0 c b row hc hbi hr
    refine (MSMEG2.acceptsIff (xc := { xc with coms := xc.coms.set i c }) (sch := sch') hty ha (by simpa using hb) (by simpa using hg) hpi hth).congr ?_
    refine (MSMEG2.equation_iff hu0 hu1 hp).trans ?_
    exact gsEquation_set_x he heq hc (by simp [hbi]) hr
  · intro j d0 d a hd haj
    refine (MSMEG2.acceptsIff (yc := { yc with coms := yc.coms.set j d }) (sch := sch') hty (by simpa using ha) hb (by simpa using hg) hpi hth).congr ?_
    refine (MSMEG2.equation_iff hu0 hu1 hp).trans ?_
    exact gsEquation_set_y he heq hd (by simp [haj])

/-- C80, MSMEG2, one element of the equation. -/
theorem C80_msmeg2_equation (he : PrimeGroups e) (equ : MSMEG2 F G2) {u0 u1 : Com G1} (hu0 : crs.u[0]? = some u0) (hu1 : crs.u[1]? = some u1)
    (h : equ.verify e sch ⟨xc, yc, [pf]⟩ crs = .ok true) (sch' : Scheduler) :
    (∀ j a0 a d, equ.a_consts[j]? = some a0 → yc.coms[j]? = some d →
      AcceptsIff (({ equ with a_consts := equ.a_consts.set j a } : MSMEG2 F G2).verify e sch' ⟨xc, yc, [pf]⟩ crs)
        (a = a0 ∨ d = 0 ∨ (u1 + emb crs.g1_gen) = 0)) ∧
    (∀ i b0 b c, equ.b_consts[i]? = some b0 → xc.coms[i]? = some c →
      AcceptsIff (({ equ with b_consts := equ.b_consts.set i b } : MSMEG2 F G2).verify e sch' ⟨xc, yc, [pf]⟩ crs)
        (b = b0 ∨ c = 0)) ∧
    (∀ i j row g0 g c d, equ.gamma[i]? = some row → row[j]? = some g0 → xc.coms[i]? = some c → yc.coms[j]? = some d →
      AcceptsIff (({ equ with gamma := equ.gamma.set i (row.set j g) } : MSMEG2 F G2).verify e sch' ⟨xc, yc, [pf]⟩ crs)
        (g = g0 ∨ c = 0 ∨ d = 0)) ∧
    ∀ t, AcceptsIff (({ equ with target := t } : MSMEG2 F G2).verify e sch' ⟨xc, yc, [pf]⟩ crs)
      (t = equ.target ∨ (u1 + emb crs.g1_gen) = 0) := by
  obtain ⟨hty, ha, hb, hg, hpi, hth, heq⟩ := MSMEG2.accepted_dom h
  obtain ⟨p0, hp⟩ : ∃ p0, pf.pi[0]? = some p0 := exists_get0 hpi.1
  have heq := (MSMEG2.equation_iff hu0 hu1 hp).mp heq
  refine ⟨?_, ?_, ?_, ?_⟩
  · intro j a0 a d haj hd
    refine (MSMEG2.acceptsIff (equ := { equ with a_consts := equ.a_consts.set j a }) (sch := sch') hty (by simpa using ha) hb hg hpi hth).congr ?_
    refine (MSMEG2.equation_iff (equ := { equ with a_consts := equ.a_consts.set j a }) hu0 hu1 hp).trans ?_
    simp only [List.map_set]
    refine (gsEquation_set_a he heq (x0 := a0 • (u1 + emb crs.g1_gen)) (by simp [haj]) hd).trans ?_
    exact (smul_eq_iff'.or Iff.rfl).trans or_swap3
  · intro i b0 b c hbi hc
    refine (MSMEG2.acceptsIff (equ := { equ with b_consts := equ.b_consts.set i b }) (sch := sch') hty ha (by simpa using hb) hg hpi hth).congr ?_
    refine (MSMEG2.equation_iff (equ := { equ with b_consts := equ.b_consts.set i b }) hu0 hu1 hp).trans ?_
    simp only [List.map_set]
    refine (gsEquation_set_b he heq (y0 := emb b0) (by simp [hbi]) hc).trans ?_
    exact emb_eq_iff.or Iff.rfl
  · intro i j row g0 g c d hr hg0 hc hd
    refine (MSMEG2.acceptsIff (equ := { equ with gamma := equ.gamma.set i (row.set j g) }) (sch := sch') hty ha hb (gammaDom_set hr hg) hpi hth).congr ?_
    refine (MSMEG2.equation_iff (equ := { equ with gamma := equ.gamma.set i (row.set j g) }) hu0 hu1 hp).trans ?_
    exact gsEquation_set_gamma he heq hr hg0 hc hd
  · intro t
    refine (MSMEG2.acceptsIff (equ := { equ with target := t }) (sch := sch') hty ha hb hg hpi hth).congr ?_
    refine (MSMEG2.equation_iff (equ := { equ with target := t }) hu0 hu1 hp).trans ?_
    have := gsEquation_set_target (δ := tensor e (u1 + emb crs.g1_gen) (emb (t - equ.target))) heq
    have ht : tensor e (u1 + emb crs.g1_gen) (emb equ.target) + tensor e (u1 + emb crs.g1_gen) (emb (t - equ.target)) = tensor e (u1 + emb crs.g1_gen) (emb t) := by
      rw [emb_sub]; simp only [tensor_eq, map_sub]; abel
    rw [ht] at this
    refine this.trans ?_
    rw [tensor_eq_zero he, emb_sub, sub_eq_zero, emb_eq_iff, or_comm]

/-! ### QuadEqu -/

theorem QuadEqu.acceptsIff {equ : QuadEqu F} (ht : pf.equ_type = .Quadratic)
    (ha : equ.a_consts.length = yc.coms.length) (hb : equ.b_consts.length = xc.coms.length)
    (hg : GammaDom xc.coms.length yc.coms.length equ.gamma) (hpi : pf.pi ≠ [] ∧ 2 ≤ crs.u.length) (hth : pf.theta ≠ [] ∧ 2 ≤ crs.v.length) :
    AcceptsIff (equ.verify e sch ⟨xc, yc, [pf]⟩ crs) (equ.Equation e crs xc.coms yc.coms pf) := by
  obtain ⟨r, hr⟩ := (C37_quad e sch ⟨xc, yc, [pf]⟩ crs equ).mpr ⟨pf, rfl, ht, ha, hb, hg, hpi.1, hpi.2, hth.1, hth.2⟩
  obtain ⟨pf', hpf', h⟩ := C53_quad ⟨xc, yc, [pf]⟩ sch r equ hr
  cases hpf'
  exact ⟨r, hr, h⟩

theorem QuadEqu.accepted_dom {equ : QuadEqu F} (h : equ.verify e sch ⟨xc, yc, [pf]⟩ crs = .ok true) :
    pf.equ_type = .Quadratic ∧ equ.a_consts.length = yc.coms.length ∧ equ.b_consts.length = xc.coms.length ∧
    GammaDom xc.coms.length yc.coms.length equ.gamma ∧ (pf.pi ≠ [] ∧ 2 ≤ crs.u.length) ∧ (pf.theta ≠ [] ∧ 2 ≤ crs.v.length) ∧
    equ.Equation e crs xc.coms yc.coms pf := by
  obtain ⟨pf', hpf', h1, h2, h3, h4, h5⟩ := (C37_quad e sch ⟨xc, yc, [pf]⟩ crs equ).mp ⟨_, h⟩
  cases hpf'
  obtain ⟨pf', hpf', h6⟩ := C53_quad ⟨xc, yc, [pf]⟩ sch true equ h
  cases hpf'
  exact ⟨h1, h2, h3, h4, ⟨h5.1, h5.2.1⟩, h5.2.2, h6.mp rfl⟩

theorem QuadEqu.equation_iff {equ : QuadEqu F} {c : List (Com G1)} {d : List (Com G2)} {u0 u1 : Com G1} (hu0 : crs.u[0]? = some u0) (hu1 : crs.u[1]? = some u1) {p0 : Com G2} (hp : pf.pi[0]? = some p0) {v0 v1 : Com G2} (hv0 : crs.v[0]? = some v0) (hv1 : crs.v[1]? = some v1) {q0 : Com G1} (hq : pf.theta[0]? = some q0) :
    equ.Equation e crs c d pf ↔
      gsEquation e (equ.a_consts.map fun a => a • (u1 + emb crs.g1_gen)) c (equ.b_consts.map fun b => b • (v1 + emb crs.g2_gen)) d equ.gamma (equ.target • tensor e (u1 + emb crs.g1_gen) (v1 + emb crs.g2_gen)) [u0] [p0] [q0] [v0] := by
  obtain ⟨u0', u', hu⟩ := cons2_of_get hu1
  rw [hu] at hu0; cases hu0
  obtain ⟨v0', v', hv⟩ := cons2_of_get hv1
  rw [hv] at hv0; cases hv0
  obtain ⟨p', hp'⟩ := cons_of_idx (idx_of_get hp)
  obtain ⟨q', hq'⟩ := cons_of_idx (idx_of_get hq)
  constructor
  · rintro ⟨_, _, _, _, _, _, _, _, _, _, k0, k1, k2, k3, h⟩
    rw [hu] at k0; cases k0
    rw [hv] at k1; cases k1
    rw [hp'] at k2; cases k2
    rw [hq'] at k3; cases k3
    exact h
  · exact fun h => ⟨_, _, _, _, _, _, _, _, _, _, hu, hv, hp', hq', h⟩

/-- C80, QuadEqu, one element of the proof. -/
theorem C80_quad_proof (he : PrimeGroups e) (equ : QuadEqu F) {u0 u1 : Com G1} (hu0 : crs.u[0]? = some u0) (hu1 : crs.u[1]? = some u1) {v0 v1 : Com G2} (hv0 : crs.v[0]? = some v0) (hv1 : crs.v[1]? = some v1)
    (h : equ.verify e sch ⟨xc, yc, [pf]⟩ crs = .ok true) (sch' : Scheduler) :
    (∀ p0 p, pf.pi[0]? = some p0 →
      AcceptsIff (equ.verify e sch' ⟨xc, yc, [{ pf with pi := pf.pi.set 0 p }]⟩ crs) (p = p0 ∨ u0 = 0)) ∧
    (∀ q0 q, pf.theta[0]? = some q0 →
      AcceptsIff (equ.verify e sch' ⟨xc, yc, [{ pf with theta := pf.theta.set 0 q }]⟩ crs) (q = q0 ∨ v0 = 0)) := by
  obtain ⟨hty, ha, hb, hg, hpi, hth, heq⟩ := QuadEqu.accepted_dom h
  obtain ⟨p0, hp⟩ : ∃ p0, pf.pi[0]? = some p0 := exists_get0 hpi.1
  obtain ⟨q0, hq⟩ : ∃ q0, pf.theta[0]? = some q0 := exists_get0 hth.1
  have heq := (QuadEqu.equation_iff hu0 hu1 hp hv0 hv1 hq).mp heq
  constructor
  · intro p0' p hp'
    rw [hp] at hp'; cases hp'
    refine (QuadEqu.acceptsIff (pf := { pf with pi := pf.pi.set 0 p }) (sch := sch') hty ha hb hg ⟨by simpa using hpi.1, hpi.2⟩ hth).congr ?_
    refine (QuadEqu.equation_iff (pf := { pf with pi := pf.pi.set 0 p }) (p0 := p) hu0 hu1 (set0_get hp) hv0 hv1 hq).trans ?_
    exact gsEquation_set_pi (k := 0) he heq rfl rfl
  · intro q0' q hq'
    rw [hq] at hq'; cases hq'
    refine (QuadEqu.acceptsIff (pf := { pf with theta := pf.theta.set 0 q }) (sch := sch') hty ha hb hg hpi ⟨by simpa using hth.1, hth.2⟩).congr ?_
    refine (QuadEqu.equation_iff (pf := { pf with theta := pf.theta.set 0 q }) (q0 := q) hu0 hu1 hp hv0 hv1 (set0_get hq)).trans ?_
    exact gsEquation_set_theta (k := 0) he heq rfl rfl

/-- C80, QuadEqu, one commitment. -/
theorem C80_quad_commitment (he : PrimeGroups e) (equ : QuadEqu F) {u0 u1 : Com G1} (hu0 : crs.u[0]? = some u0) (hu1 : crs.u[1]? = some u1) {v0 v1 : Com G2} (hv0 : crs.v[0]? = some v0) (hv1 : crs.v[1]? = some v1)
    (h : equ.verify e sch ⟨xc, yc, [pf]⟩ crs = .ok true) (sch' : Scheduler) :
    (∀ i c0 c b row, xc.coms[i]? = some c0 → equ.b_consts[i]? = some b → equ.gamma[i]? = some row →
      AcceptsIff (equ.verify e sch' ⟨{ xc with coms := xc.coms.set i c }, yc, [pf]⟩ crs)
        (c = c0 ∨ coefX (b • (v1 + emb crs.g2_gen)) row yc.coms = 0)) ∧
    (∀ j d0 d a, yc.coms[j]? = some d0 → equ.a_consts[j]? = some a →
      AcceptsIff (equ.verify e sch' ⟨xc, { yc with coms := yc.coms.set j d }, [pf]⟩ crs)
        (d = d0 ∨ coefY (a • (u1 + emb crs.g1_gen)) equ.gamma j xc.coms = 0)) := by
  obtain ⟨hty, ha, hb, hg, hpi, hth, heq⟩ := QuadEqu.accepted_dom h
  obtain ⟨p0, hp⟩ : ∃ p0, pf.pi[0]? = some p0 := exists_get0 hpi.1
  obtain ⟨q0, hq⟩ : ∃ q0, pf.theta[0]? = some q0 := exists_get0 hth.1
  have heq := (QuadEqu.equation_iff hu0 hu1 hp hv0 hv1 hq).mp heq
  constructor
  · intro i c0 c b row hc hbi hr
    refine (QuadEqu.acceptsIff (xc := { xc with coms := xc.coms.set i c }) (sch := sch') hty ha (by simpa using hb) (by simpa using hg) hpi hth).congr ?_
    refine (QuadEqu.equation_iff hu0 hu1 hp hv0 hv1 hq).trans ?_
    exact gsEquation_set_x he heq hc (by simp [hbi]) hr
  · intro j d0 d a hd haj
    refine (QuadEqu.acceptsIff (yc := { yc with coms := yc.coms.set j d }) (sch := sch') hty (by simpa using ha) hb (by simpa using hg) hpi hth).congr ?_
    refine (QuadEqu.equation_iff hu0 hu1 hp hv0 hv1 hq).trans ?_
    exact gsEquation_set_y he heq hd (by simp [haj])

/-- C80, QuadEqu, one element of the equation. -/
theorem C80_quad_equation (he : PrimeGroups e) (equ : QuadEqu F) {u0 u1 : Com G1} (hu0 : crs.u[0]? = some u0) (hu1 : crs.u[1]? = some u1) {v0 v1 : Com G2} (hv0 : crs.v[0]? = some v0) (hv1 : crs.v[1]? = some v1)
    (h : equ.verify e sch ⟨xc, yc, [pf]⟩ crs = .ok true) (sch' : Scheduler) :
    (∀ j a0 a d, equ.a_consts[j]? = some a0 → yc.coms[j]? = some d →
      AcceptsIff (({ equ with a_consts := equ.a_consts.set j a } : QuadEqu F).verify e sch' ⟨xc, yc, [pf]⟩ crs)
        (a = a0 ∨ d = 0 ∨ (u1 + emb crs.g1_gen) = 0)) ∧
    (∀ i b0 b c, equ.b_consts[i]? = some b0 → xc.coms[i]? = some c →
      AcceptsIff (({ equ with b_consts := equ.b_consts.set i b } : QuadEqu F).verify e sch' ⟨xc, yc, [pf]⟩ crs)
        (b = b0 ∨ c = 0 ∨ (v1 + emb crs.g2_gen) = 0)) ∧
    (∀ i j row g0 g c d, equ.gamma[i]? = some row → row[j]? = some g0 → xc.coms[i]? = some c → yc.coms[j]? = some d →
      AcceptsIff (({ equ with gamma := equ.gamma.set i (row.set j g) } : QuadEqu F).verify e sch' ⟨xc, yc, [pf]⟩ crs)
        (g = g0 ∨ c = 0 ∨ d = 0)) ∧
    ∀ t, AcceptsIff (({ equ with target := t } : QuadEqu F).verify e sch' ⟨xc, yc, [pf]⟩ crs)
      (t = equ.target ∨ (u1 + emb crs.g1_gen) = 0 ∨ (v1 + emb crs.g2_gen) = 0) := by
  obtain ⟨hty, ha, hb, hg, hpi, hth, heq⟩ := QuadEqu.accepted_dom h
  obtain ⟨p0, hp⟩ : ∃ p0, pf.pi[0]? = some p0 := exists_get0 hpi.1
  obtain ⟨q0, hq⟩ : ∃ q0, pf.theta[0]? = some q0 := exists_get0 hth.1
  have heq := (QuadEqu.equation_iff hu0 hu1 hp hv0 hv1 hq).mp heq
  refine ⟨?_, ?_, ?_, ?_⟩
  · intro j a0 a d haj hd
    refine (QuadEqu.acceptsIff (equ := { equ with a_consts := equ.a_consts.set j a }) (sch := sch') hty (by simpa using ha) hb hg hpi hth).congr ?_
    refine (QuadEqu.equation_iff (equ := { equ with a_consts := equ.a_consts.set j a }) hu0 hu1 hp hv0 hv1 hq).trans ?_
    simp only [List.map_set]
    refine (gsEquation_set_a he heq (x0 := a0 • (u1 + emb crs.g1_gen)) (by simp [haj]) hd).trans ?_
    exact (smul_eq_iff'.or Iff.rfl).trans or_swap3
  · intro i b0 b c hbi hc
    refine (QuadEqu.acceptsIff (equ := { equ with b_consts := equ.b_consts.set i b }) (sch := sch') hty ha (by simpa using hb) hg hpi hth).congr ?_
    refine (QuadEqu.equation_iff (equ := { equ with b_consts := equ.b_consts.set i b }) hu0 hu1 hp hv0 hv1 hq).trans ?_
    simp only [List.map_set]
    refine (gsEquation_set_b he heq (y0 := b0 • (v1 + emb crs.g2_gen)) (by simp [hbi]) hc).trans ?_
    exact (smul_eq_iff'.or Iff.rfl).trans or_swap3
  · intro i j row g0 g c d hr hg0 hc hd
    refine (QuadEqu.acceptsIff (equ := { equ with gamma := equ.gamma.set i (row.set j g) }) (sch := sch') hty ha hb (gammaDom_set hr hg) hpi hth).congr ?_
    refine (QuadEqu.equation_iff (equ := { equ with gamma := equ.gamma.set i (row.set j g) }) hu0 hu1 hp hv0 hv1 hq).trans ?_
    exact gsEquation_set_gamma he heq hr hg0 hc hd
  · intro t
    refine (QuadEqu.acceptsIff (equ := { equ with target := t }) (sch := sch') hty ha hb hg hpi hth).congr ?_
    refine (QuadEqu.equation_iff (equ := { equ with target := t }) hu0 hu1 hp hv0 hv1 hq).trans ?_
    have := gsEquation_set_target (δ := (t - equ.target) • tensor e (u1 + emb crs.g1_gen) (v1 + emb crs.g2_gen)) heq
    rw [← add_smul, add_sub_cancel] at this
    refine this.trans ?_
    rw [smul_eq_zero, sub_eq_zero, tensor_eq_zero he]

/-! ### Generated CRS -/

/-- C80, generated CRS: the values that must differ from 0 for a change to be detected do, except possibly the second
key element. -/
theorem C80_generated (hc : GeneratedCrs e crs) (h0 : crs.NonzeroGens) :
    ∃ u0 u1 v0 v1, crs.u = [u0, u1] ∧ crs.v = [v0, v1] ∧ u0 ≠ 0 ∧ v0 ≠ 0 ∧
      u1 + emb crs.g1_gen ≠ 0 ∧ v1 + emb crs.g2_gen ≠ 0 := by
  obtain ⟨ρ, _, rng, rfl⟩ := hc
  obtain ⟨h1, h2⟩ := h0
  have key : ∀ {G : Type} [AddCommGroup G] [Module F G] (p q : G) (t : F), p ≠ 0 →
      (⟨p, q⟩ : Com G) ≠ 0 ∧ (⟨t • p, t • q - 0⟩ : Com G) + emb p ≠ 0 := by
    intro G _ _ p q t hp
    refine ⟨fun h => hp (congrArg Com.c0 h), fun h => ?_⟩
    have h0 : t • p + 0 = 0 := congrArg Com.c0 h
    have h1 : t • q - 0 + p = 0 := congrArg Com.c1 h
    rw [add_zero, smul_eq_zero] at h0
    rcases h0 with rfl | h0
    · simp at h1; exact hp h1
    · exact hp h0
  exact ⟨_, _, _, _, rfl, rfl, (key _ _ 0 h1).1, (key _ _ 0 h2).1, (key _ _ _ h1).2, (key _ _ _ h2).2⟩

/-! ### Examples: an accepted proof and what is said about changed ones -/

section examples
open Ex

/-- A proof for `ppe7`. -/
private def exProof : Res (CProof K K K) := Except.map Prod.fst (ppe7.commitAndProve (fun _ => seqSched) [2] [3, 4] crs7 (1 : Nat))

example : (do ppe7.verify e7 seqSched (← exProof) crs7) = .ok true := by decide +kernel

/-- `pi[1]` replaced. -/
example : (do
    let cp ← exProof
    let pf ← idx cp.equ_proofs 0
    ppe7.verify e7 seqSched ⟨cp.xcoms, cp.ycoms, [{ pf with pi := pf.pi.set 1 ⟨1, 1⟩ }]⟩ crs7) = .ok false := by decide +kernel

/-- The second commitment to a `y` replaced. -/
example : (do
    let cp ← exProof
    let pf ← idx cp.equ_proofs 0
    ppe7.verify e7 seqSched ⟨cp.xcoms, { cp.ycoms with coms := cp.ycoms.coms.set 1 ⟨1, 1⟩ }, [pf]⟩ crs7) = .ok false := by
  decide +kernel

example (cp : CProof K K K) (pf : EquProof K K K) (h : ppe7.verify e7 seqSched ⟨cp.xcoms, cp.ycoms, [pf]⟩ crs7 = .ok true)
    (p0 p : Com K) (hp : pf.pi[1]? = some p0) (hne : p ≠ p0) :
    ppe7.verify e7 seqSched ⟨cp.xcoms, cp.ycoms, [{ pf with pi := pf.pi.set 1 p }]⟩ crs7 = .ok false := by
  obtain ⟨b, hb, hiff⟩ := (C80_ppe_proof prime7 ppe7 h seqSched).1 1 _ p0 p rfl hp
  cases b
  · exact hb
  · exact absurd (hiff.mp rfl) (by rintro (h | h); exacts [hne h, absurd h (by decide)])

end examples

/-! ### Instances: the other parts of a message -/

namespace Ex

section
variable (s : Scheduler)

example := C80_ppe_commitment prime7 ppe7 ppe7_accepted s
example := C80_ppe_equation prime7 ppe7 ppe7_accepted s
example := C80_msmeg1_proof prime7 msm1_7 (crs := crs7) rfl rfl msm1_7_accepted s
example := C80_msmeg1_commitment prime7 msm1_7 (crs := crs7) rfl rfl msm1_7_accepted s
example := C80_msmeg1_equation prime7 msm1_7 (crs := crs7) rfl rfl msm1_7_accepted s
example := C80_msmeg2_proof prime7 msm2_7 (crs := crs7) rfl rfl msm2_7_accepted s
example := C80_msmeg2_commitment prime7 msm2_7 (crs := crs7) rfl rfl msm2_7_accepted s
example := C80_msmeg2_equation prime7 msm2_7 (crs := crs7) rfl rfl msm2_7_accepted s
example := C80_quad_proof prime7 quad7 (crs := crs7) rfl rfl rfl rfl quad7_accepted s
example := C80_quad_commitment prime7 quad7 (crs := crs7) rfl rfl rfl rfl quad7_accepted s
example := C80_quad_equation prime7 quad7 (crs := crs7) rfl rfl rfl rfl quad7_accepted s
example := C80_generated crs7_generated crs7_nonzero

end

end Ex

end GS
