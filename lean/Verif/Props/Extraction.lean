import Verif.Spec.Extract
import Verif.Lemmas.Sound
import Verif.Props.Completeness
import Verif.Props.Example

/-!
# C65: accepted proofs are proofs of knowledge

With the scalars drawn by `generate_crs`, values satisfying the equation are computed from the commitments of any accepted
proof; nothing is assumed of groups, pairing and generators but bilinearity.
-/

set_option linter.unusedSectionVars false

namespace GS
variable {F G1 G2 GT : Type} [Field F] [AddCommGroup G1] [Module F G1] [AddCommGroup G2] [Module F G2]
  [AddCommGroup GT] [Module F GT] {ρ ρ' : Type} [Rng ρ F G1 G2] [Rng ρ' F G1 G2] (e : G1 →ₗ[F] G2 →ₗ[F] GT)

theorem extractWith_eq {G : Type} [AddCommGroup G] [Module F G] (a : F) : (extractWith a : Com G → G) = proj a := by
  funext c; simp [extractWith, proj_apply]

theorem binding_assemble (p1 : G1) (p2 : G2) (a1 a2 t1 t2 : F) :
    Binding e (assembleCrs e prepareRealBindingKey p1 p2 a1 a2 t1 t2) a1 t1 a2 t2 := by
  constructor <;> rw [assembleReal_eq]

theorem generateCrs_binding (rng : ρ) :
    ∃ t1 t2, Binding e (generateCrs e rng).1 (extractionKey F G1 G2 rng).1 t1 (extractionKey F G1 G2 rng).2 t2 := by
  exact ⟨_, _, binding_assemble e _ _ _ _ _ _⟩

variable [DecidableEq GT]

/-- C65, PPE. -/
theorem C65_ppe (rng : ρ) (equ : PPE F G1 G2 GT) (cp : CProof F G1 G2) (sch : Scheduler)
    (h : equ.verify e sch cp (generateCrs e rng).1 = .ok true) :
    equ.Holds e (cp.xcoms.coms.map (extractWith (extractionKey F G1 G2 rng).1))
      (cp.ycoms.coms.map (extractWith (extractionKey F G1 G2 rng).2)) := by
  obtain ⟨t1, t2, hb⟩ := generateCrs_binding e rng
  rw [extractWith_eq, extractWith_eq]
  exact PPE.extract hb h

/-- C65, MSMEG1. -/
theorem C65_msmeg1 (rng : ρ) (equ : MSMEG1 F G1) (cp : CProof F G1 G2) (sch : Scheduler)
    (h : equ.verify e sch cp (generateCrs e rng).1 = .ok true) :
    (equ.lifted e (generateCrs e rng).1.g2_gen).Holds e (cp.xcoms.coms.map (extractWith (extractionKey F G1 G2 rng).1))
      (cp.ycoms.coms.map (extractWith (extractionKey F G1 G2 rng).2)) := by
  obtain ⟨t1, t2, hb⟩ := generateCrs_binding e rng
  rw [extractWith_eq, extractWith_eq]
  obtain ⟨pf, -, -, h⟩ := (MSMEG1.verify_iff e sch).mp h
  obtain ⟨a, b, t, ha, hb', ht, h⟩ := verifyCore_proj h
    (fun q hq => by rw [(ComT.pairingSum_iff e).mp hq |>.2]; exact projT_sum_left e hb.u0)
    (fun q hq => projT_head_right e hb.v0 hq)
  cases ha
  rwa [map_lin1, projT_MSMEG1 hb ht, batch2_proj hb hb'] at h

/-- C65, MSMEG2. -/
theorem C65_msmeg2 (rng : ρ) (equ : MSMEG2 F G2) (cp : CProof F G1 G2) (sch : Scheduler)
    (h : equ.verify e sch cp (generateCrs e rng).1 = .ok true) :
    (equ.lifted e (generateCrs e rng).1.g1_gen).Holds e (cp.xcoms.coms.map (extractWith (extractionKey F G1 G2 rng).1))
      (cp.ycoms.coms.map (extractWith (extractionKey F G1 G2 rng).2)) := by
  obtain ⟨t1, t2, hb⟩ := generateCrs_binding e rng
  rw [extractWith_eq, extractWith_eq]
  obtain ⟨pf, -, -, h⟩ := (MSMEG2.verify_iff e sch).mp h
  obtain ⟨a, b, t, ha, hb', ht, h⟩ := verifyCore_proj h
    (fun q hq => projT_head_left e hb.u0 hq)
    (fun q hq => by rw [(ComT.pairingSum_iff e).mp hq |>.2]; exact projT_sum_right e hb.v0)
  cases hb'
  rwa [map_lin2, projT_MSMEG2 hb ht, batch1_proj hb ha] at h

/-- C65, QuadEqu. -/
theorem C65_quad (rng : ρ) (equ : QuadEqu F) (cp : CProof F G1 G2) (sch : Scheduler)
    (h : equ.verify e sch cp (generateCrs e rng).1 = .ok true) :
    (equ.lifted e (generateCrs e rng).1.g1_gen (generateCrs e rng).1.g2_gen).Holds e
      (cp.xcoms.coms.map (extractWith (extractionKey F G1 G2 rng).1))
      (cp.ycoms.coms.map (extractWith (extractionKey F G1 G2 rng).2)) := by
  obtain ⟨t1, t2, hb⟩ := generateCrs_binding e rng
  rw [extractWith_eq, extractWith_eq]
  obtain ⟨pf, -, -, h⟩ := (QuadEqu.verify_iff e sch).mp h
  obtain ⟨a, b, t, ha, hb', ht, h⟩ := verifyCore_proj h
    (fun q hq => projT_head_left e hb.u0 hq)
    (fun q hq => projT_head_right e hb.v0 hq)
  rwa [projT_Quad hb ht, batch1_proj hb ha, batch2_proj hb hb'] at h

omit [DecidableEq GT] in
/-- C65: what is extracted from a commitment that opens to group elements are these elements. -/
theorem C65_group_opening (rng : ρ) (c : Commit F G1) (d : Commit F G2) (x : List G1) (y : List G2)
    (hc : c.OpensGroup (generateCrs e rng).1.u x) (hd : d.OpensGroup (generateCrs e rng).1.v y) :
    c.coms.map (extractWith (extractionKey F G1 G2 rng).1) = x ∧ d.coms.map (extractWith (extractionKey F G1 G2 rng).2) = y := by
  obtain ⟨t1, t2, hb⟩ := generateCrs_binding e rng
  rw [extractWith_eq, extractWith_eq]
  obtain ⟨_, _, _, h, R, hR, -, hc⟩ := hc
  rw [hb.u] at h; cases h
  obtain ⟨_, _, _, h, S, hS, -, hd⟩ := hd
  rw [hb.v] at h; cases h
  rw [hc, hd, List.map_zipWith, List.map_zipWith]
  simp only [groupCom, map_add, map_smul, proj_lin, proj_key0, proj_key1, smul_zero, add_zero]
  constructor
  · apply List.ext_getElem (by simp [hR])
    intro i h1 h2; simp
  · apply List.ext_getElem (by simp [hS])
    intro i h1 h2; simp

omit [DecidableEq GT] in
/-- C65: what is extracted from a commitment that opens to scalars are their multiples of the generator. -/
theorem C65_scalar_opening (rng : ρ) (c : Commit F G1) (d : Commit F G2) (x y : List F)
    (hc : c.OpensScalar (generateCrs e rng).1.u (generateCrs e rng).1.g1_gen x)
    (hd : d.OpensScalar (generateCrs e rng).1.v (generateCrs e rng).1.g2_gen y) :
    c.coms.map (extractWith (extractionKey F G1 G2 rng).1) = x.map (· • (generateCrs e rng).1.g1_gen) ∧
    d.coms.map (extractWith (extractionKey F G1 G2 rng).2) = y.map (· • (generateCrs e rng).1.g2_gen) := by
  obtain ⟨t1, t2, hb⟩ := generateCrs_binding e rng
  rw [extractWith_eq, extractWith_eq]
  obtain ⟨_, _, _, h, R, hR, -, hc⟩ := hc
  rw [hb.u] at h; cases h
  obtain ⟨_, _, _, h, S, hS, -, hd⟩ := hd
  rw [hb.v] at h; cases h
  rw [hc, hd, List.map_zipWith, List.map_zipWith]
  simp only [scalarCom, map_add, map_smul, proj_lin, proj_key0, proj_key1, smul_zero, add_zero, zero_add]
  constructor
  · apply List.ext_getElem (by simp [hR])
    intro i h1 h2; simp
  · apply List.ext_getElem (by simp [hS])
    intro i h1 h2; simp

omit [DecidableEq GT] in
/-- C65: a solution of the MSMEG1 equation is one of the lifted equation, and conversely if the pairing with the
generator loses nothing. -/
theorem C65_msmeg1_lifted (equ : MSMEG1 F G1) (g2 : G2) (hg : ∀ z, e z g2 = 0 → z = 0) (x : List G1) (y : List F) :
    (equ.lifted e g2).Holds e x (y.map (· • g2)) ↔ equ.Holds x y := by
  have := equLhs_map (F := F) (fun (x : G1) (y : F) => y • x) (fun x y => e x y) id (· • g2)
    (e.flip g2) (fun x y => by simp) equ.a_consts x equ.b_consts y equ.gamma
  rw [List.map_id, List.map_id] at this
  simp only [PPE.Holds, MSMEG1.Holds, MSMEG1.lifted]
  rw [← this, LinearMap.flip_apply]
  exact ⟨fun h => sub_eq_zero.mp (hg _ (by rw [map_sub, LinearMap.sub_apply, h, sub_self])), fun h => by rw [h]⟩

omit [DecidableEq GT] in
/-- C65: the same for MSMEG2. -/
theorem C65_msmeg2_lifted (equ : MSMEG2 F G2) (g1 : G1) (hg : ∀ z, e g1 z = 0 → z = 0) (x : List F) (y : List G2) :
    (equ.lifted e g1).Holds e (x.map (· • g1)) y ↔ equ.Holds x y := by
  have := equLhs_map (F := F) (fun (x : F) (y : G2) => x • y) (fun x y => e x y) (· • g1) id
    (e g1) (fun x y => by simp) equ.a_consts x equ.b_consts y equ.gamma
  rw [List.map_id, List.map_id] at this
  simp only [PPE.Holds, MSMEG2.Holds, MSMEG2.lifted]
  rw [← this]
  exact ⟨fun h => sub_eq_zero.mp (hg _ (by rw [map_sub, h, sub_self])), fun h => by rw [h]⟩

omit [DecidableEq GT] in
/-- C65: the same for QuadEqu. -/
theorem C65_quad_lifted (equ : QuadEqu F) (g1 : G1) (g2 : G2) (hg : e g1 g2 ≠ 0) (x y : List F) :
    (equ.lifted e g1 g2).Holds e (x.map (· • g1)) (y.map (· • g2)) ↔ equ.Holds x y := by
  have := equLhs_map (F := F) (fun x y : F => x * y) (fun x y => e x y) (· • g1) (· • g2)
    (LinearMap.toSpanSingleton F GT (e g1 g2))
    (fun x y => by simp only [LinearMap.toSpanSingleton_apply, map_smul, LinearMap.smul_apply]; module)
    equ.a_consts x equ.b_consts y equ.gamma
  simp only [PPE.Holds, QuadEqu.Holds, QuadEqu.lifted]
  rw [← this, LinearMap.toSpanSingleton_apply]
  exact ⟨fun h => smul_left_injective F hg h, fun h => by rw [h]⟩

/-- The hypothesis can be met, and the extracted values are the prover's. -/
example : ∃ cp, Ex.ppe7.verify Ex.e7 seqSched cp (generateCrs Ex.e7 (1 : Nat)).1 = .ok true :=
  let ⟨cp, _, _, h⟩ := C01_ppe_complete Ex.e7 Ex.ppe7 [2] [3, 4] Ex.crs7 (0 : Nat) (fun _ => seqSched) seqSched
    (by simp) (by simp) Ex.ppe7_dims rfl rfl Ex.ppe7_holds
  ⟨cp, h⟩

example : extractionKey Ex.K Ex.K Ex.K (1 : Nat) = (3, 4) := by decide
example : extractWith (3 : Ex.K) (groupCom (F := Ex.K) ⟨1, 3⟩ ⟨5, 15⟩ (6 : Ex.K) (2, 4)) = 6 := by decide
example (z : Ex.K) (h : Ex.e7 z 2 = 0) : z = 0 := by revert z; decide

/-! ### Instances -/

namespace Ex

example := C65_ppe e7 (1 : Nat) ppe7 ppe7_msg seqSched ppe7_accepted
example := C65_msmeg1 e7 (1 : Nat) msm1_7 msm1_7_msg seqSched msm1_7_accepted
example := C65_msmeg2 e7 (1 : Nat) msm2_7 msm2_7_msg seqSched msm2_7_accepted
example := C65_quad e7 (1 : Nat) quad7 quad7_msg seqSched quad7_accepted
example := C65_group_opening e7 (1 : Nat) _ _ [2] [3, 4] ppe7_xopens ppe7_yopens
example := C65_scalar_opening e7 (1 : Nat) _ _ [2] [3, 4] quad7_xopens quad7_yopens
example := C65_msmeg1_lifted e7 msm1_7 2 (by decide) [2] [3, 4]
example := C65_msmeg2_lifted e7 msm2_7 1 (by decide) [2] [3, 4]
example := C65_quad_lifted e7 quad7 1 2 (by decide) [2] [3, 4]

end Ex

end GS
