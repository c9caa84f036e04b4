import Verif.Lemmas.TestsKey
import Verif.Lemmas.Adaptive
import Verif.Props.Randomness
import Verif.Props.Completeness

/-!
# The tests about proofs
-/

set_option linter.unusedSectionVars false
set_option linter.unusedSimpArgs false

namespace GS.Tests
open GS
section
variable {ρ F G1 G2 GT : Type} [Field F] [AddCommGroup G1] [Module F G1] [AddCommGroup G2] [Module F G2]
  [AddCommGroup GT] [Module F GT] [DecidableEq F] [DecidableEq G1] [DecidableEq G2] [DecidableEq GT] [Rng ρ F G1 G2]
  (e : G1 →ₗ[F] G2 →ₗ[F] GT) (randT : ρ → GT × ρ) (s t : ρ) (sch sch' : Nat → Scheduler)

theorem wp_two {α : Type} {x : Prog ρ α} {s : ρ} {P : α → Prop} (h : ∃ a s', x s = .ok (a, s') ∧ P a) {Q : α → ρ → Prop}
    (hQ : ∀ a s', P a → Q a s') : Wp x s Q := by
  obtain ⟨a, s', h, hp⟩ := h
  exact ⟨a, s', h, hQ a s' hp⟩

theorem rect_batchCommitG1 {x : List G1} (hx : x ≠ []) {key : CRS G1 G2 GT} (hk : key.u.length = 2) (s : ρ) :
    ∃ c s', batchCommitG1 (F := F) x key s = .ok (c, s') ∧ Rect x.length 2 c.rand := by
  obtain ⟨u0, u1, hu⟩ := List.length_eq_two.mp hk
  refine ⟨_, _, batchCommitG1_iff.mpr ⟨hx, u0, u1, hu, rfl⟩, ?_, ?_⟩
  · simp [drawPairs_length]
  · intro r hr
    simp only [List.mem_map] at hr
    obtain ⟨p, -, rfl⟩ := hr
    rfl

theorem rect_batchCommitG2 {x : List G2} (hx : x ≠ []) {key : CRS G1 G2 GT} (hk : key.v.length = 2) (s : ρ) :
    ∃ c s', batchCommitG2 (F := F) x key s = .ok (c, s') ∧ Rect x.length 2 c.rand := by
  obtain ⟨u0, u1, hu⟩ := List.length_eq_two.mp hk
  refine ⟨_, _, batchCommitG2_iff.mpr ⟨hx, u0, u1, hu, rfl⟩, ?_, ?_⟩
  · simp [drawPairs_length]
  · intro r hr
    simp only [List.mem_map] at hr
    obtain ⟨p, -, rfl⟩ := hr
    rfl

theorem rect_batchCommitScalarToB1 {x : List F} (hx : x ≠ []) {key : CRS G1 G2 GT} (hk : 2 ≤ key.u.length) (s : ρ) :
    ∃ c s', batchCommitScalarToB1 x key s = .ok (c, s') ∧ Rect x.length 1 c.rand := by
  obtain ⟨u0, u1, u', hu⟩ := cons2_of_length hk
  refine ⟨_, _, batchCommitScalarToB1_iff.mpr ⟨hx, u0, u1, u', hu, rfl⟩, ?_, ?_⟩
  · simp [drawF_length]
  · simp

theorem rect_batchCommitScalarToB2 {x : List F} (hx : x ≠ []) {key : CRS G1 G2 GT} (hk : 2 ≤ key.v.length) (s : ρ) :
    ∃ c s', batchCommitScalarToB2 x key s = .ok (c, s') ∧ Rect x.length 1 c.rand := by
  obtain ⟨u0, u1, u', hu⟩ := cons2_of_length hk
  refine ⟨_, _, batchCommitScalarToB2_iff.mpr ⟨hx, u0, u1, u', hu, rfl⟩, ?_, ?_⟩
  · simp [drawF_length]
  · simp

theorem ppe_prove_ok {equ : PPE F G1 G2 GT} {x : List G1} {y : List G2} {xc : Commit F G1} {yc : Commit F G2}
    {crs : CRS G1 G2 GT} (hx : x ≠ []) (hy : y ≠ []) (hd : equ.Dims x.length y.length) (hu : crs.u.length = 2) (hv : crs.v.length = 2)
    (hxr : Rect x.length 2 xc.rand) (hyr : Rect y.length 2 yc.rand) (s : ρ) :
    ∃ pf s', equ.prove sch x y xc yc crs s = .ok (pf, s') ∧ pf.equ_type = .PairingProduct ∧ pf.Fits := by
  obtain ⟨⟨pf, s'⟩, h⟩ := (C36_ppe sch crs s xc yc equ x y).1.mpr ⟨hx, hy, hxr, hyr, hd, hu, hv⟩
  refine ⟨pf, s', h, ?_⟩
  rw [PPE.prove_eq] at h
  obtain ⟨h0, h1, h2, h3⟩ := proveCore_rand h
  exact ⟨h0, by unfold Fits64; omega, by unfold Fits64; omega, h1 ▸ fitsMat_small _ (by simp) (by simp)⟩

theorem ppe_agree {equ : PPE F G1 G2 GT} {x : List G1} {y : List G2} {crs : CRS G1 G2 GT} {s t s' t' : ρ}
    {cp cp' : CProof F G1 G2} (h : equ.commitAndProve sch x y crs s = .ok (cp, s'))
    (h' : equ.commitAndProve sch' x y crs t = .ok (cp', t')) :
    cp = cp' ↔ (draws (F := F) G1 G2 (2 * x.length + 2 * y.length + 4) s).1 = (draws (F := F) G1 G2 (2 * x.length + 2 * y.length + 4) t).1 := by
  obtain ⟨⟨pf, hpf, hd⟩, hall⟩ := C39_ppe (ρ' := ρ) equ x y sch crs s s' cp h
  obtain ⟨⟨pf', hpf', hd'⟩, -⟩ := C39_ppe (ρ' := ρ) equ x y sch' crs t t' cp' h'
  constructor
  · rintro rfl
    rw [hpf] at hpf'
    cases hpf'
    rw [hd, hd']
  · intro hdr
    have := hall sch' t t' (by rw [hdr, hd'])
    rw [h'] at this
    cases this
    rfl

theorem wp_ppe_cap {equ : PPE F G1 G2 GT} {x : List G1} {y : List G2} {crs : CRS G1 G2 GT} {s : ρ}
    {Q : CProof F G1 G2 → ρ → Prop} :
    Wp (equ.commitAndProve sch x y crs : Prog ρ (CProof F G1 G2)) s Q ↔
    Wp (batchCommitG1 (F := F) x crs) s fun xc s => Wp (batchCommitG2 (F := F) y crs) s fun yc s =>
      Wp (equ.prove sch x y xc yc crs : Prog ρ (EquProof F G1 G2)) s fun pf s => Q ⟨xc, yc, [pf]⟩ s := by
  have : (equ.commitAndProve sch x y crs : Prog ρ (CProof F G1 G2)) = ((do
      let xc ← (batchCommitG1 (F := F) x crs : Prog ρ (Commit F G1))
      let yc ← (batchCommitG2 (F := F) y crs : Prog ρ (Commit F G2))
      let pf ← (equ.prove sch x y xc yc crs : Prog ρ (EquProof F G1 G2))
      pure ⟨xc, yc, [pf]⟩) : Prog ρ (CProof F G1 G2)) := rfl
  rw [this]
  simp only [wp_bind, wp_pure]

theorem msmeg1_prove_ok {equ : MSMEG1 F G1} {x : List G1} {y : List F} {xc : Commit F G1} {yc : Commit F G2}
    {crs : CRS G1 G2 GT} (hx : x ≠ []) (hy : y ≠ []) (hd : equ.Dims x.length y.length) (hu : crs.u.length = 2) (hv : 2 ≤ crs.v.length)
    (hxr : Rect x.length 2 xc.rand) (hyr : Rect y.length 1 yc.rand) (s : ρ) :
    ∃ pf s', equ.prove sch x y xc yc crs s = .ok (pf, s') ∧ pf.equ_type = .MultiScalarG1 ∧ pf.Fits := by
  obtain ⟨⟨pf, s'⟩, h⟩ := (C36_msmeg1 sch crs s xc yc equ x y).1.mpr ⟨hx, hy, hxr, hyr, hd, hu, hv⟩
  refine ⟨pf, s', h, ?_⟩
  rw [MSMEG1.prove_eq] at h
  obtain ⟨h0, h1, h2, h3⟩ := proveCore_rand h
  exact ⟨h0, by unfold Fits64; omega, by unfold Fits64; omega, h1 ▸ fitsMat_small _ (by simp) (by simp)⟩

theorem msmeg1_agree {equ : MSMEG1 F G1} {x : List G1} {y : List F} {crs : CRS G1 G2 GT} {s t s' t' : ρ}
    {cp cp' : CProof F G1 G2} (h : equ.commitAndProve sch x y crs s = .ok (cp, s'))
    (h' : equ.commitAndProve sch' x y crs t = .ok (cp', t')) :
    cp = cp' ↔ (draws (F := F) G1 G2 (2 * x.length + y.length + 2) s).1 = (draws (F := F) G1 G2 (2 * x.length + y.length + 2) t).1 := by
  obtain ⟨⟨pf, hpf, hd⟩, hall⟩ := C39_msmeg1 (ρ' := ρ) equ x y sch crs s s' cp h
  obtain ⟨⟨pf', hpf', hd'⟩, -⟩ := C39_msmeg1 (ρ' := ρ) equ x y sch' crs t t' cp' h'
  constructor
  · rintro rfl
    rw [hpf] at hpf'
    cases hpf'
    rw [hd, hd']
  · intro hdr
    have := hall sch' t t' (by rw [hdr, hd'])
    rw [h'] at this
    cases this
    rfl

theorem wp_msmeg1_cap {equ : MSMEG1 F G1} {x : List G1} {y : List F} {crs : CRS G1 G2 GT} {s : ρ}
    {Q : CProof F G1 G2 → ρ → Prop} :
    Wp (equ.commitAndProve sch x y crs : Prog ρ (CProof F G1 G2)) s Q ↔
    Wp (batchCommitG1 (F := F) x crs) s fun xc s => Wp (batchCommitScalarToB2 y crs) s fun yc s =>
      Wp (equ.prove sch x y xc yc crs : Prog ρ (EquProof F G1 G2)) s fun pf s => Q ⟨xc, yc, [pf]⟩ s := by
  have : (equ.commitAndProve sch x y crs : Prog ρ (CProof F G1 G2)) = ((do
      let xc ← (batchCommitG1 (F := F) x crs : Prog ρ (Commit F G1))
      let yc ← (batchCommitScalarToB2 y crs : Prog ρ (Commit F G2))
      let pf ← (equ.prove sch x y xc yc crs : Prog ρ (EquProof F G1 G2))
      pure ⟨xc, yc, [pf]⟩) : Prog ρ (CProof F G1 G2)) := rfl
  rw [this]
  simp only [wp_bind, wp_pure]

theorem msmeg2_prove_ok {equ : MSMEG2 F G2} {x : List F} {y : List G2} {xc : Commit F G1} {yc : Commit F G2}
    {crs : CRS G1 G2 GT} (hx : x ≠ []) (hy : y ≠ []) (hd : equ.Dims x.length y.length) (hu : 2 ≤ crs.u.length) (hv : crs.v.length = 2)
    (hxr : Rect x.length 1 xc.rand) (hyr : Rect y.length 2 yc.rand) (s : ρ) :
    ∃ pf s', equ.prove sch x y xc yc crs s = .ok (pf, s') ∧ pf.equ_type = .MultiScalarG2 ∧ pf.Fits := by
  obtain ⟨⟨pf, s'⟩, h⟩ := (C36_msmeg2 sch crs s xc yc equ x y).1.mpr ⟨hx, hy, hxr, hyr, hd, hu, hv⟩
  refine ⟨pf, s', h, ?_⟩
  rw [MSMEG2.prove_eq] at h
  obtain ⟨h0, h1, h2, h3⟩ := proveCore_rand h
  exact ⟨h0, by unfold Fits64; omega, by unfold Fits64; omega, h1 ▸ fitsMat_small _ (by simp) (by simp)⟩

theorem msmeg2_agree {equ : MSMEG2 F G2} {x : List F} {y : List G2} {crs : CRS G1 G2 GT} {s t s' t' : ρ}
    {cp cp' : CProof F G1 G2} (h : equ.commitAndProve sch x y crs s = .ok (cp, s'))
    (h' : equ.commitAndProve sch' x y crs t = .ok (cp', t')) :
    cp = cp' ↔ (draws (F := F) G1 G2 (x.length + 2 * y.length + 2) s).1 = (draws (F := F) G1 G2 (x.length + 2 * y.length + 2) t).1 := by
  obtain ⟨⟨pf, hpf, hd⟩, hall⟩ := C39_msmeg2 (ρ' := ρ) equ x y sch crs s s' cp h
  obtain ⟨⟨pf', hpf', hd'⟩, -⟩ := C39_msmeg2 (ρ' := ρ) equ x y sch' crs t t' cp' h'
  constructor
  · rintro rfl
    rw [hpf] at hpf'
    cases hpf'
    rw [hd, hd']
  · intro hdr
    have := hall sch' t t' (by rw [hdr, hd'])
    rw [h'] at this
    cases this
    rfl

theorem wp_msmeg2_cap {equ : MSMEG2 F G2} {x : List F} {y : List G2} {crs : CRS G1 G2 GT} {s : ρ}
    {Q : CProof F G1 G2 → ρ → Prop} :
    Wp (equ.commitAndProve sch x y crs : Prog ρ (CProof F G1 G2)) s Q ↔
    Wp (batchCommitScalarToB1 x crs) s fun xc s => Wp (batchCommitG2 (F := F) y crs) s fun yc s =>
      Wp (equ.prove sch x y xc yc crs : Prog ρ (EquProof F G1 G2)) s fun pf s => Q ⟨xc, yc, [pf]⟩ s := by
  have : (equ.commitAndProve sch x y crs : Prog ρ (CProof F G1 G2)) = ((do
      let xc ← (batchCommitScalarToB1 x crs : Prog ρ (Commit F G1))
      let yc ← (batchCommitG2 (F := F) y crs : Prog ρ (Commit F G2))
      let pf ← (equ.prove sch x y xc yc crs : Prog ρ (EquProof F G1 G2))
      pure ⟨xc, yc, [pf]⟩) : Prog ρ (CProof F G1 G2)) := rfl
  rw [this]
  simp only [wp_bind, wp_pure]

theorem quad_prove_ok {equ : QuadEqu F} {x : List F} {y : List F} {xc : Commit F G1} {yc : Commit F G2}
    {crs : CRS G1 G2 GT} (hx : x ≠ []) (hy : y ≠ []) (hd : equ.Dims x.length y.length) (hu : 2 ≤ crs.u.length) (hv : 2 ≤ crs.v.length)
    (hxr : Rect x.length 1 xc.rand) (hyr : Rect y.length 1 yc.rand) (s : ρ) :
    ∃ pf s', equ.prove sch x y xc yc crs s = .ok (pf, s') ∧ pf.equ_type = .Quadratic ∧ pf.Fits := by
  obtain ⟨⟨pf, s'⟩, h⟩ := (C36_quad sch crs s xc yc equ x y).1.mpr ⟨hx, hy, hxr, hyr, hd, hu, hv⟩
  refine ⟨pf, s', h, ?_⟩
  rw [QuadEqu.prove_eq] at h
  obtain ⟨h0, h1, h2, h3⟩ := proveCore_rand h
  exact ⟨h0, by unfold Fits64; omega, by unfold Fits64; omega, h1 ▸ fitsMat_small _ (by simp) (by simp)⟩

theorem quad_agree {equ : QuadEqu F} {x : List F} {y : List F} {crs : CRS G1 G2 GT} {s t s' t' : ρ}
    {cp cp' : CProof F G1 G2} (h : equ.commitAndProve sch x y crs s = .ok (cp, s'))
    (h' : equ.commitAndProve sch' x y crs t = .ok (cp', t')) :
    cp = cp' ↔ (draws (F := F) G1 G2 (x.length + y.length + 1) s).1 = (draws (F := F) G1 G2 (x.length + y.length + 1) t).1 := by
  obtain ⟨⟨pf, hpf, hd⟩, hall⟩ := C39_quad (ρ' := ρ) equ x y sch crs s s' cp h
  obtain ⟨⟨pf', hpf', hd'⟩, -⟩ := C39_quad (ρ' := ρ) equ x y sch' crs t t' cp' h'
  constructor
  · rintro rfl
    rw [hpf] at hpf'
    cases hpf'
    rw [hd, hd']
  · intro hdr
    have := hall sch' t t' (by rw [hdr, hd'])
    rw [h'] at this
    cases this
    rfl

theorem wp_quad_cap {equ : QuadEqu F} {x : List F} {y : List F} {crs : CRS G1 G2 GT} {s : ρ}
    {Q : CProof F G1 G2 → ρ → Prop} :
    Wp (equ.commitAndProve sch x y crs : Prog ρ (CProof F G1 G2)) s Q ↔
    Wp (batchCommitScalarToB1 x crs) s fun xc s => Wp (batchCommitScalarToB2 y crs) s fun yc s =>
      Wp (equ.prove sch x y xc yc crs : Prog ρ (EquProof F G1 G2)) s fun pf s => Q ⟨xc, yc, [pf]⟩ s := by
  have : (equ.commitAndProve sch x y crs : Prog ρ (CProof F G1 G2)) = ((do
      let xc ← (batchCommitScalarToB1 x crs : Prog ρ (Commit F G1))
      let yc ← (batchCommitScalarToB2 y crs : Prog ρ (Commit F G2))
      let pf ← (equ.prove sch x y xc yc crs : Prog ρ (EquProof F G1 G2))
      pure ⟨xc, yc, [pf]⟩) : Prog ρ (CProof F G1 G2)) := rfl
  rw [this]
  simp only [wp_bind, wp_pure]

theorem wp_skip {n : Nat} {s : ρ} {Q : Unit → ρ → Prop} :
    Wp (skip ρ F G1 G2 n) s Q ↔ Q () (draws (F := F) G1 G2 n s).2 := by
  induction n generalizing s with
  | zero => exact wp_pure
  | succ n ih =>
    unfold skip
    rw [wp_bind, wp_fr, ih]
    rfl

theorem wp_ppeProof {s : ρ} {Q : EquProof F G1 G2 → ρ → Prop} (h : ∀ pf s', pf.equ_type = .PairingProduct → pf.Fits → Q pf s') :
    Wp (ppeProof ρ e randT sch) s Q := by
  unfold ppeProof ppeVars ppeEqu
  simp only [wp_bind]
  refine wp_key e fun u0 u1 v0 v1 p1 p2 pt s1 => ?_
  simp only [wp_fr, wp_gt, wp_pure]
  refine wp_two (rect_batchCommitG1 (by simp) rfl _) fun xc s2 hxr => ?_
  refine wp_two (rect_batchCommitG2 (by simp) rfl _) fun yc s3 hyr => ?_
  refine wp_two (ppe_prove_ok sch ?_ ?_ ?_ rfl rfl hxr hyr _) ?_
  · simp
  · simp
  · refine ⟨?_, ?_, ?_, ?_⟩ <;> simp
  · intro pf s4 hp
    exact h pf s4 hp.1 hp.2

theorem pass_ppe_proof_type : Passes (test_PPE_proof_type ρ e randT sch) s := by
  rw [passes_iff]
  unfold test_PPE_proof_type
  rw [wp_bind]
  refine wp_ppeProof e randT sch fun pf s' hp _ => ?_
  rw [wp_assert, hp]
  exact ⟨rfl, trivial⟩

theorem pass_ppe_proof_serde {cF : Codec F} {c1 : Codec G1} {c2 : Codec G2} (hF : cF.Lawful) (h1 : c1.Lawful) (h2 : c2.Lawful)
    (vF : ∀ a, cF.Valid a) (v1 : ∀ a, c1.Valid a) (v2 : ∀ a, c2.Valid a) :
    Passes (test_PPE_cproof_serde ρ e randT sch cF c1 c2) s := by
  rw [passes_iff]
  unfold test_PPE_cproof_serde
  rw [wp_bind]
  refine wp_ppeProof e randT sch fun pf s' _ hf => ?_
  rw [serde_ok ((C72_equ_proof pf pf).2.mpr rfl) fun m => C41_proof hF h1 h2 m .Yes pf hf
    (fun _ => by simp [EquProof.Elems, Com.Elems, vF, v1, v2]) [], wp_lift_ok]
  trivial

theorem ppe_two_iff {equ : PPE F G1 G2 GT} {x : List G1} {y : List G2} {crs : CRS G1 G2 GT} {s t : ρ}
    (hx : x ≠ []) (hy : y ≠ []) (hd : equ.Dims x.length y.length) (hu : crs.u.length = 2) (hv : crs.v.length = 2) :
    (Wp (batchCommitG1 (F := F) x crs : Prog ρ (Commit F G1)) s fun xc s => Wp (batchCommitG2 (F := F) y crs : Prog ρ (Commit F G2)) s fun yc s =>
      Wp (equ.prove sch x y xc yc crs : Prog ρ (EquProof F G1 G2)) s fun pf _ =>
      Wp (equ.commitAndProve sch' x y crs : Prog ρ (CProof F G1 G2)) t fun cp _ =>
        (⟨xc, yc, [pf]⟩ : CProof F G1 G2).eq cp = true) ↔
    (draws (F := F) G1 G2 (2 * x.length + 2 * y.length + 4) s).1 = (draws (F := F) G1 G2 (2 * x.length + 2 * y.length + 4) t).1 := by
  rw [← wp_ppe_cap sch (Q := fun cp _ => Wp (equ.commitAndProve sch' x y crs : Prog ρ (CProof F G1 G2)) t fun cp' _ =>
    cp.eq cp' = true)]
  obtain ⟨⟨a, s'⟩, ha⟩ := ((C36_commit_and_prove (F := F) sch crs s).1 equ x y).mpr ⟨hx, hy, hd, hu, hv⟩
  obtain ⟨⟨b, t'⟩, hb⟩ := ((C36_commit_and_prove (F := F) sch' crs t).1 equ x y).mpr ⟨hx, hy, hd, hu, hv⟩
  rw [wp_ok ha, wp_ok hb, (C72_cproof a b).2]
  exact ppe_agree sch sch' ha hb

theorem pass_ppe_two :
    Passes (test_PPE_cproof_is_commit_and_prove ρ e randT sch sch') (s, t) ↔
      (draws (F := F) G1 G2 10 (randT (draws (F := F) G1 G2 6 (generateCrs (F := F) e s).2).2).2).1 =
        (draws (F := F) G1 G2 10 (randT (draws (F := F) G1 G2 6 (generateCrs (F := F) e t).2).2).2).1 := by
  rw [passes_iff]
  unfold test_PPE_cproof_is_commit_and_prove ppeVars ppeEqu
  simp only [wp_bind, wp_on1, wp_on2, wp_crs, wp_fr, wp_gt, wp_pure, wp_skip, wp_assert, and_true]
  exact ppe_two_iff sch sch' (by simp) (by simp) ⟨rfl, rfl, rfl, by simp⟩ rfl rfl

theorem ppe_wp_verifies {equ : PPE F G1 G2 GT} {x : List G1} {y : List G2} {crs : CRS G1 G2 GT} {s : ρ} (sch' : Scheduler)
    (hx : x ≠ []) (hy : y ≠ []) (hd : equ.Dims x.length y.length) (hu : crs.u.length = 2) (hv : crs.v.length = 2)
    (hsat : equ.Holds e x y) :
    Wp (equ.commitAndProve sch x y crs : Prog ρ (CProof F G1 G2)) s fun cp s' =>
      Wp (liftM (equ.verify e sch' cp crs) : Prog ρ Bool) s' fun b s' => Wp (liftM (assert b) : Prog ρ Unit) s' fun _ _ => True := by
  obtain ⟨cp, s', h, h'⟩ := C01_ppe_complete e equ x y crs s sch sch' hx hy hd hu hv hsat
  rw [wp_ok h, h', wp_lift_ok, wp_assert]
  exact ⟨rfl, trivial⟩

theorem pass_ppe_verifies (sch' : Scheduler) : Passes (pairing_product_equation_verifies ρ e sch sch') s := by
  rw [passes_iff]
  unfold pairing_product_equation_verifies
  simp only [wp_bind, idx, idx2, List.getElem?_cons_zero, List.getElem?_cons_succ, ok_bind, wp_lift_ok]
  refine wp_key e fun u0 u1 v0 v1 p1 p2 pt s1 => ?_
  simp only [wp_fr]
  refine ppe_wp_verifies e sch sch' (by simp) (by simp) ⟨rfl, rfl, rfl, by simp⟩ rfl rfl ?_
  simp [PPE.Holds, equLhs]
  module

theorem wp_msmeg1Proof {s : ρ} {Q : EquProof F G1 G2 → ρ → Prop} (h : ∀ pf s', pf.equ_type = .MultiScalarG1 → pf.Fits → Q pf s') :
    Wp (msmeg1Proof ρ e sch) s Q := by
  unfold msmeg1Proof msmeg1Vars msmeg1Equ
  simp only [wp_bind]
  refine wp_key e fun u0 u1 v0 v1 p1 p2 pt s1 => ?_
  simp only [wp_fr, wp_pure]
  refine wp_two (rect_batchCommitG1 (by simp) rfl _) fun xc s2 hxr => ?_
  refine wp_two (rect_batchCommitScalarToB2 (by simp) le_rfl _) fun yc s3 hyr => ?_
  refine wp_two (msmeg1_prove_ok sch ?_ ?_ ?_ rfl le_rfl hxr hyr _) ?_
  · simp
  · simp
  · refine ⟨?_, ?_, ?_, ?_⟩ <;> simp
  · intro pf s4 hp
    exact h pf s4 hp.1 hp.2

theorem pass_msmeg1_proof_type : Passes (test_MSMEG1_proof_type ρ e sch) s := by
  rw [passes_iff]
  unfold test_MSMEG1_proof_type
  rw [wp_bind]
  refine wp_msmeg1Proof e sch fun pf s' hp _ => ?_
  rw [wp_assert, hp]
  exact ⟨rfl, trivial⟩

theorem pass_msmeg1_proof_serde {cF : Codec F} {c1 : Codec G1} {c2 : Codec G2} (hF : cF.Lawful) (h1 : c1.Lawful) (h2 : c2.Lawful)
    (vF : ∀ a, cF.Valid a) (v1 : ∀ a, c1.Valid a) (v2 : ∀ a, c2.Valid a) :
    Passes (test_MSGMEG1_cproof_serde ρ e sch cF c1 c2) s := by
  rw [passes_iff]
  unfold test_MSGMEG1_cproof_serde
  rw [wp_bind]
  refine wp_msmeg1Proof e sch fun pf s' _ hf => ?_
  rw [serde_ok ((C72_equ_proof pf pf).2.mpr rfl) fun m => C41_proof hF h1 h2 m .Yes pf hf
    (fun _ => by simp [EquProof.Elems, Com.Elems, vF, v1, v2]) [], wp_lift_ok]
  trivial

theorem msmeg1_two_iff {equ : MSMEG1 F G1} {x : List G1} {y : List F} {crs : CRS G1 G2 GT} {s t : ρ}
    (hx : x ≠ []) (hy : y ≠ []) (hd : equ.Dims x.length y.length) (hu : crs.u.length = 2) (hv : 2 ≤ crs.v.length) :
    (Wp (batchCommitG1 (F := F) x crs : Prog ρ (Commit F G1)) s fun xc s => Wp (batchCommitScalarToB2 y crs : Prog ρ (Commit F G2)) s fun yc s =>
      Wp (equ.prove sch x y xc yc crs : Prog ρ (EquProof F G1 G2)) s fun pf _ =>
      Wp (equ.commitAndProve sch' x y crs : Prog ρ (CProof F G1 G2)) t fun cp _ =>
        (⟨xc, yc, [pf]⟩ : CProof F G1 G2).eq cp = true) ↔
    (draws (F := F) G1 G2 (2 * x.length + y.length + 2) s).1 = (draws (F := F) G1 G2 (2 * x.length + y.length + 2) t).1 := by
  rw [← wp_msmeg1_cap sch (Q := fun cp _ => Wp (equ.commitAndProve sch' x y crs : Prog ρ (CProof F G1 G2)) t fun cp' _ =>
    cp.eq cp' = true)]
  obtain ⟨⟨a, s'⟩, ha⟩ := ((C36_commit_and_prove (F := F) sch crs s).2.1 equ x y).mpr ⟨hx, hy, hd, hu, hv⟩
  obtain ⟨⟨b, t'⟩, hb⟩ := ((C36_commit_and_prove (F := F) sch' crs t).2.1 equ x y).mpr ⟨hx, hy, hd, hu, hv⟩
  rw [wp_ok ha, wp_ok hb, (C72_cproof a b).2]
  exact msmeg1_agree sch sch' ha hb

theorem pass_msmeg1_two :
    Passes (test_MSMEG1_cproof_is_commit_and_prove ρ e sch sch') (s, t) ↔
      (draws (F := F) G1 G2 7 (draws (F := F) G1 G2 7 (generateCrs (F := F) e s).2).2).1 =
        (draws (F := F) G1 G2 7 (draws (F := F) G1 G2 7 (generateCrs (F := F) e t).2).2).1 := by
  rw [passes_iff]
  unfold test_MSMEG1_cproof_is_commit_and_prove msmeg1Vars msmeg1Equ
  simp only [wp_bind, wp_on1, wp_on2, wp_crs, wp_fr, wp_pure, wp_skip, wp_assert, and_true]
  exact msmeg1_two_iff sch sch' (by simp) (by simp) ⟨rfl, rfl, rfl, by simp⟩ rfl le_rfl

theorem msmeg1_wp_verifies {equ : MSMEG1 F G1} {x : List G1} {y : List F} {crs : CRS G1 G2 GT} {s : ρ} (sch' : Scheduler)
    (hx : x ≠ []) (hy : y ≠ []) (hd : equ.Dims x.length y.length) (hu : crs.u.length = 2) (hv : crs.v.length = 2)
    (hsat : equ.Holds x y) :
    Wp (equ.commitAndProve sch x y crs : Prog ρ (CProof F G1 G2)) s fun cp s' =>
      Wp (liftM (equ.verify e sch' cp crs) : Prog ρ Bool) s' fun b s' => Wp (liftM (assert b) : Prog ρ Unit) s' fun _ _ => True := by
  obtain ⟨cp, s', h, h'⟩ := C02_msmeg1_complete e equ x y crs s sch sch' hx hy hd hu hv hsat
  rw [wp_ok h, h', wp_lift_ok, wp_assert]
  exact ⟨rfl, trivial⟩

theorem pass_msmeg1_verifies (sch' : Scheduler) : Passes (multi_scalar_mult_equation_G1_verifies ρ e sch sch') s := by
  rw [passes_iff]
  unfold multi_scalar_mult_equation_G1_verifies
  simp only [wp_bind, idx, idx2, List.getElem?_cons_zero, List.getElem?_cons_succ, ok_bind, wp_lift_ok]
  refine wp_key e fun u0 u1 v0 v1 p1 p2 pt s1 => ?_
  simp only [wp_fr]
  refine msmeg1_wp_verifies e sch sch' (by simp) (by simp) ⟨rfl, rfl, rfl, by simp⟩ rfl rfl ?_
  simp [MSMEG1.Holds, equLhs]
  module

theorem wp_msmeg2Proof {s : ρ} {Q : EquProof F G1 G2 → ρ → Prop} (h : ∀ pf s', pf.equ_type = .MultiScalarG2 → pf.Fits → Q pf s') :
    Wp (msmeg2Proof ρ e sch) s Q := by
  unfold msmeg2Proof msmeg2Vars msmeg2Equ
  simp only [wp_bind]
  refine wp_key e fun u0 u1 v0 v1 p1 p2 pt s1 => ?_
  simp only [wp_fr, wp_pure]
  refine wp_two (rect_batchCommitScalarToB1 (by simp) le_rfl _) fun xc s2 hxr => ?_
  refine wp_two (rect_batchCommitG2 (by simp) rfl _) fun yc s3 hyr => ?_
  refine wp_two (msmeg2_prove_ok sch ?_ ?_ ?_ le_rfl rfl hxr hyr _) ?_
  · simp
  · simp
  · refine ⟨?_, ?_, ?_, ?_⟩ <;> simp
  · intro pf s4 hp
    exact h pf s4 hp.1 hp.2

theorem pass_msmeg2_proof_type : Passes (test_MSMEG2_proof_type ρ e sch) s := by
  rw [passes_iff]
  unfold test_MSMEG2_proof_type
  rw [wp_bind]
  refine wp_msmeg2Proof e sch fun pf s' hp _ => ?_
  rw [wp_assert, hp]
  exact ⟨rfl, trivial⟩

theorem pass_msmeg2_proof_serde {cF : Codec F} {c1 : Codec G1} {c2 : Codec G2} (hF : cF.Lawful) (h1 : c1.Lawful) (h2 : c2.Lawful)
    (vF : ∀ a, cF.Valid a) (v1 : ∀ a, c1.Valid a) (v2 : ∀ a, c2.Valid a) :
    Passes (test_MSMEG2_proof_serde ρ e sch cF c1 c2) s := by
  rw [passes_iff]
  unfold test_MSMEG2_proof_serde
  rw [wp_bind]
  refine wp_msmeg2Proof e sch fun pf s' _ hf => ?_
  rw [serde_ok ((C72_equ_proof pf pf).2.mpr rfl) fun m => C41_proof hF h1 h2 m .Yes pf hf
    (fun _ => by simp [EquProof.Elems, Com.Elems, vF, v1, v2]) [], wp_lift_ok]
  trivial

theorem msmeg2_two_iff {equ : MSMEG2 F G2} {x : List F} {y : List G2} {crs : CRS G1 G2 GT} {s t : ρ}
    (hx : x ≠ []) (hy : y ≠ []) (hd : equ.Dims x.length y.length) (hu : 2 ≤ crs.u.length) (hv : crs.v.length = 2) :
    (Wp (batchCommitScalarToB1 x crs : Prog ρ (Commit F G1)) s fun xc s => Wp (batchCommitG2 (F := F) y crs : Prog ρ (Commit F G2)) s fun yc s =>
      Wp (equ.prove sch x y xc yc crs : Prog ρ (EquProof F G1 G2)) s fun pf _ =>
      Wp (equ.commitAndProve sch' x y crs : Prog ρ (CProof F G1 G2)) t fun cp _ =>
        (⟨xc, yc, [pf]⟩ : CProof F G1 G2).eq cp = true) ↔
    (draws (F := F) G1 G2 (x.length + 2 * y.length + 2) s).1 = (draws (F := F) G1 G2 (x.length + 2 * y.length + 2) t).1 := by
  rw [← wp_msmeg2_cap sch (Q := fun cp _ => Wp (equ.commitAndProve sch' x y crs : Prog ρ (CProof F G1 G2)) t fun cp' _ =>
    cp.eq cp' = true)]
  obtain ⟨⟨a, s'⟩, ha⟩ := ((C36_commit_and_prove (F := F) sch crs s).2.2.1 equ x y).mpr ⟨hx, hy, hd, hu, hv⟩
  obtain ⟨⟨b, t'⟩, hb⟩ := ((C36_commit_and_prove (F := F) sch' crs t).2.2.1 equ x y).mpr ⟨hx, hy, hd, hu, hv⟩
  rw [wp_ok ha, wp_ok hb, (C72_cproof a b).2]
  exact msmeg2_agree sch sch' ha hb

theorem pass_msmeg2_two :
    Passes (test_MSMEG2_cproof_is_commit_and_prove ρ e sch sch') (s, t) ↔
      (draws (F := F) G1 G2 6 (draws (F := F) G1 G2 7 (generateCrs (F := F) e s).2).2).1 =
        (draws (F := F) G1 G2 6 (draws (F := F) G1 G2 7 (generateCrs (F := F) e t).2).2).1 := by
  rw [passes_iff]
  unfold test_MSMEG2_cproof_is_commit_and_prove msmeg2Vars msmeg2Equ
  simp only [wp_bind, wp_on1, wp_on2, wp_crs, wp_fr, wp_pure, wp_skip, wp_assert, and_true]
  exact msmeg2_two_iff sch sch' (by simp) (by simp) ⟨rfl, rfl, rfl, by simp⟩ le_rfl rfl

theorem msmeg2_wp_verifies {equ : MSMEG2 F G2} {x : List F} {y : List G2} {crs : CRS G1 G2 GT} {s : ρ} (sch' : Scheduler)
    (hx : x ≠ []) (hy : y ≠ []) (hd : equ.Dims x.length y.length) (hu : crs.u.length = 2) (hv : crs.v.length = 2)
    (hsat : equ.Holds x y) :
    Wp (equ.commitAndProve sch x y crs : Prog ρ (CProof F G1 G2)) s fun cp s' =>
      Wp (liftM (equ.verify e sch' cp crs) : Prog ρ Bool) s' fun b s' => Wp (liftM (assert b) : Prog ρ Unit) s' fun _ _ => True := by
  obtain ⟨cp, s', h, h'⟩ := C03_msmeg2_complete e equ x y crs s sch sch' hx hy hd hu hv hsat
  rw [wp_ok h, h', wp_lift_ok, wp_assert]
  exact ⟨rfl, trivial⟩

theorem pass_msmeg2_verifies (sch' : Scheduler) : Passes (multi_scalar_mult_equation_G2_verifies ρ e sch sch') s := by
  rw [passes_iff]
  unfold multi_scalar_mult_equation_G2_verifies
  simp only [wp_bind, idx, idx2, List.getElem?_cons_zero, List.getElem?_cons_succ, ok_bind, wp_lift_ok]
  refine wp_key e fun u0 u1 v0 v1 p1 p2 pt s1 => ?_
  simp only [wp_fr]
  refine msmeg2_wp_verifies e sch sch' (by simp) (by simp) ⟨rfl, rfl, rfl, by simp⟩ rfl rfl ?_
  simp [MSMEG2.Holds, equLhs]
  module

theorem wp_quadProof {s : ρ} {Q : EquProof F G1 G2 → ρ → Prop} (h : ∀ pf s', pf.equ_type = .Quadratic → pf.Fits → Q pf s') :
    Wp (quadProof ρ e sch) s Q := by
  unfold quadProof quadVars quadEqu
  simp only [wp_bind]
  refine wp_key e fun u0 u1 v0 v1 p1 p2 pt s1 => ?_
  simp only [wp_fr, wp_pure]
  refine wp_two (rect_batchCommitScalarToB1 (by simp) le_rfl _) fun xc s2 hxr => ?_
  refine wp_two (rect_batchCommitScalarToB2 (by simp) le_rfl _) fun yc s3 hyr => ?_
  refine wp_two (quad_prove_ok sch ?_ ?_ ?_ le_rfl le_rfl hxr hyr _) ?_
  · simp
  · simp
  · refine ⟨?_, ?_, ?_, ?_⟩ <;> simp
  · intro pf s4 hp
    exact h pf s4 hp.1 hp.2

theorem pass_quad_proof_type : Passes (test_quadratic_proof_type ρ e sch) s := by
  rw [passes_iff]
  unfold test_quadratic_proof_type
  rw [wp_bind]
  refine wp_quadProof e sch fun pf s' hp _ => ?_
  rw [wp_assert, hp]
  exact ⟨rfl, trivial⟩

theorem pass_quad_proof_serde {cF : Codec F} {c1 : Codec G1} {c2 : Codec G2} (hF : cF.Lawful) (h1 : c1.Lawful) (h2 : c2.Lawful)
    (vF : ∀ a, cF.Valid a) (v1 : ∀ a, c1.Valid a) (v2 : ∀ a, c2.Valid a) :
    Passes (test_quadratic_proof_serde ρ e sch cF c1 c2) s := by
  rw [passes_iff]
  unfold test_quadratic_proof_serde
  rw [wp_bind]
  refine wp_quadProof e sch fun pf s' _ hf => ?_
  rw [serde_ok ((C72_equ_proof pf pf).2.mpr rfl) fun m => C41_proof hF h1 h2 m .Yes pf hf
    (fun _ => by simp [EquProof.Elems, Com.Elems, vF, v1, v2]) [], wp_lift_ok]
  trivial

theorem quad_two_iff {equ : QuadEqu F} {x : List F} {y : List F} {crs : CRS G1 G2 GT} {s t : ρ}
    (hx : x ≠ []) (hy : y ≠ []) (hd : equ.Dims x.length y.length) (hu : 2 ≤ crs.u.length) (hv : 2 ≤ crs.v.length) :
    (Wp (batchCommitScalarToB1 x crs : Prog ρ (Commit F G1)) s fun xc s => Wp (batchCommitScalarToB2 y crs : Prog ρ (Commit F G2)) s fun yc s =>
      Wp (equ.prove sch x y xc yc crs : Prog ρ (EquProof F G1 G2)) s fun pf _ =>
      Wp (equ.commitAndProve sch' x y crs : Prog ρ (CProof F G1 G2)) t fun cp _ =>
        (⟨xc, yc, [pf]⟩ : CProof F G1 G2).eq cp = true) ↔
    (draws (F := F) G1 G2 (x.length + y.length + 1) s).1 = (draws (F := F) G1 G2 (x.length + y.length + 1) t).1 := by
  rw [← wp_quad_cap sch (Q := fun cp _ => Wp (equ.commitAndProve sch' x y crs : Prog ρ (CProof F G1 G2)) t fun cp' _ =>
    cp.eq cp' = true)]
  obtain ⟨⟨a, s'⟩, ha⟩ := ((C36_commit_and_prove (F := F) sch crs s).2.2.2 equ x y).mpr ⟨hx, hy, hd, hu, hv⟩
  obtain ⟨⟨b, t'⟩, hb⟩ := ((C36_commit_and_prove (F := F) sch' crs t).2.2.2 equ x y).mpr ⟨hx, hy, hd, hu, hv⟩
  rw [wp_ok ha, wp_ok hb, (C72_cproof a b).2]
  exact quad_agree sch sch' ha hb

theorem pass_quad_two :
    Passes (test_quadratic_cproof_is_commit_and_prove ρ e sch sch') (s, t) ↔
      (draws (F := F) G1 G2 4 (draws (F := F) G1 G2 7 (generateCrs (F := F) e s).2).2).1 =
        (draws (F := F) G1 G2 4 (draws (F := F) G1 G2 7 (generateCrs (F := F) e t).2).2).1 := by
  rw [passes_iff]
  unfold test_quadratic_cproof_is_commit_and_prove quadVars quadEqu
  simp only [wp_bind, wp_on1, wp_on2, wp_crs, wp_fr, wp_pure, wp_skip, wp_assert, and_true]
  exact quad_two_iff sch sch' (by simp) (by simp) ⟨rfl, rfl, rfl, by simp⟩ le_rfl le_rfl

theorem quad_wp_verifies {equ : QuadEqu F} {x : List F} {y : List F} {crs : CRS G1 G2 GT} {s : ρ} (sch' : Scheduler)
    (hx : x ≠ []) (hy : y ≠ []) (hd : equ.Dims x.length y.length) (hu : crs.u.length = 2) (hv : crs.v.length = 2)
    (hsat : equ.Holds x y) :
    Wp (equ.commitAndProve sch x y crs : Prog ρ (CProof F G1 G2)) s fun cp s' =>
      Wp (liftM (equ.verify e sch' cp crs) : Prog ρ Bool) s' fun b s' => Wp (liftM (assert b) : Prog ρ Unit) s' fun _ _ => True := by
  obtain ⟨cp, s', h, h'⟩ := C04_quad_complete e equ x y crs s sch sch' hx hy hd hu hv hsat
  rw [wp_ok h, h', wp_lift_ok, wp_assert]
  exact ⟨rfl, trivial⟩

theorem pass_quad_verifies (sch' : Scheduler) : Passes (quadratic_equation_verifies ρ e sch sch') s := by
  rw [passes_iff]
  unfold quadratic_equation_verifies
  simp only [wp_bind, idx, idx2, List.getElem?_cons_zero, List.getElem?_cons_succ, ok_bind, wp_lift_ok]
  refine wp_key e fun u0 u1 v0 v1 p1 p2 pt s1 => ?_
  simp only [wp_fr]
  refine quad_wp_verifies e sch sch' (by simp) (by simp) ⟨rfl, rfl, rfl, by simp⟩ rfl rfl ?_
  simp [QuadEqu.Holds, equLhs]
  ring

end
end GS.Tests
