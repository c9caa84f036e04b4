import Verif.Lemmas.Crs
import Verif.Lemmas.Commit

/-! From commitments to openings, and `commit_and_prove` runs. -/

set_option linter.unusedSectionVars false
set_option linter.unusedVariables false

namespace GS
variable {F G1 G2 GT : Type} [Field F] [AddCommGroup G1] [Module F G1] [AddCommGroup G2] [Module F G2]
  [AddCommGroup GT] [Module F GT] {ρ : Type} [Rng ρ F G1 G2]

theorem batchCommitG1_opens {x : List G1} {key : CRS G1 G2 GT} {rng : ρ} (hx : x ≠ []) (hu : key.u.length = 2) :
    ∃ (c : Commit F G1) (rng' : ρ), batchCommitG1 x key rng = .ok (c, rng') ∧ c.OpensGroup key.u x := by
  obtain ⟨u0, u1, hu⟩ := List.length_eq_two.mp hu
  exact ⟨_, _, batchCommitG1_iff.mpr ⟨hx, u0, u1, hu, rfl⟩, u0, u1, [], hu,
    _, drawPairs_length _ _ _, rfl, rfl⟩

theorem batchCommitG2_opens {x : List G2} {key : CRS G1 G2 GT} {rng : ρ} (hx : x ≠ []) (hu : key.v.length = 2) :
    ∃ (c : Commit F G2) (rng' : ρ), batchCommitG2 x key rng = .ok (c, rng') ∧ c.OpensGroup key.v x := by
  obtain ⟨u0, u1, hu⟩ := List.length_eq_two.mp hu
  exact ⟨_, _, batchCommitG2_iff.mpr ⟨hx, u0, u1, hu, rfl⟩, u0, u1, [], hu,
    _, drawPairs_length _ _ _, rfl, rfl⟩

theorem batchCommitScalarToB1_opens {x : List F} {key : CRS G1 G2 GT} {rng : ρ} (hx : x ≠ []) (hu : 2 ≤ key.u.length) :
    ∃ (c : Commit F G1) (rng' : ρ), batchCommitScalarToB1 x key rng = .ok (c, rng') ∧
      c.OpensScalar key.u key.g1_gen x := by
  obtain ⟨u0, u1, u', hu⟩ : ∃ u0 u1 u', key.u = u0 :: u1 :: u' := by
    match h : key.u, hu with
    | u0 :: u1 :: u', _ => exact ⟨u0, u1, u', rfl⟩
  exact ⟨_, _, batchCommitScalarToB1_iff.mpr ⟨hx, u0, u1, u', hu, rfl⟩, u0, u1, u', hu, _, drawF_length _ _ _, rfl, rfl⟩

theorem batchCommitScalarToB2_opens {x : List F} {key : CRS G1 G2 GT} {rng : ρ} (hx : x ≠ []) (hu : 2 ≤ key.v.length) :
    ∃ (c : Commit F G2) (rng' : ρ), batchCommitScalarToB2 x key rng = .ok (c, rng') ∧
      c.OpensScalar key.v key.g2_gen x := by
  obtain ⟨u0, u1, u', hu⟩ : ∃ u0 u1 u', key.v = u0 :: u1 :: u' := by
    match h : key.v, hu with
    | u0 :: u1 :: u', _ => exact ⟨u0, u1, u', rfl⟩
  exact ⟨_, _, batchCommitScalarToB2_iff.mpr ⟨hx, u0, u1, u', hu, rfl⟩, u0, u1, u', hu, _, drawF_length _ _ _, rfl, rfl⟩

variable [DecidableEq GT]

/-- `commit_and_prove` returns, and `verify` on its result returns the truth value of `P`. -/
def HonestCap (cap : Res (CProof F G1 G2 × ρ)) (verify : Scheduler → CProof F G1 G2 → Res Bool) (P : Prop) : Prop :=
  ∃ cp rng', cap = .ok (cp, rng') ∧ ∀ sch, ∃ b, verify sch cp = .ok b ∧ (b = true ↔ P)

variable {e : G1 →ₗ[F] G2 →ₗ[F] GT} {sch : Nat → Scheduler} {crs : CRS G1 G2 GT} {rng : ρ}

theorem PPE.cap {equ : PPE F G1 G2 GT} {x : List G1} {y : List G2} (hx : x ≠ []) (hy : y ≠ [])
    (hd : equ.Dims x.length y.length) (hu : crs.u.length = 2) (hv : crs.v.length = 2) :
    HonestCap (equ.commitAndProve sch x y crs rng) (fun s cp => equ.verify e s cp crs) (equ.Holds e x y) := by
  obtain ⟨xc, r1, h1, o1⟩ := batchCommitG1_opens (F := F) (rng := rng) hx hu
  obtain ⟨yc, r2, h2, o2⟩ := batchCommitG2_opens (F := F) (rng := r1) hy hv
  obtain ⟨pf, r3, h3, -, -, -, h4⟩ := PPE.honest e sch equ x y xc yc crs r2 hx hy hd hu hv o1 o2
  refine ⟨⟨xc, yc, [pf]⟩, r3, ?_, fun s => h4 s _ rfl rfl rfl⟩
  simp only [PPE.commitAndProve, h1, h2, h3, ok_bind, pure_eq_ok]

theorem MSMEG1.cap {equ : MSMEG1 F G1} {x : List G1} {y : List F} (hx : x ≠ []) (hy : y ≠ [])
    (hd : equ.Dims x.length y.length) (hu : crs.u.length = 2) {v0 v1 : Com G2} {v' : List (Com G2)}
    (hv : crs.v = v0 :: v1 :: v') :
    HonestCap (equ.commitAndProve sch x y crs rng) (fun s cp => equ.verify e s cp crs)
      (tMSMEG1 e (v1 + ⟨0, crs.g2_gen⟩)
        (equLhs (fun (x : G1) (y : F) => y • x) equ.a_consts x equ.b_consts y equ.gamma) =
          tMSMEG1 e (v1 + ⟨0, crs.g2_gen⟩) equ.target) := by
  obtain ⟨xc, r1, h1, o1⟩ := batchCommitG1_opens (F := F) (rng := rng) hx hu
  obtain ⟨yc, r2, h2, o2⟩ := batchCommitScalarToB2_opens (key := crs) (rng := r1) hy (by rw [hv]; simp)
  obtain ⟨pf, r3, h3, -, -, -, h4⟩ := MSMEG1.honest e sch equ x y xc yc crs r2 hx hy hd hu hv o1 o2
  refine ⟨⟨xc, yc, [pf]⟩, r3, ?_, fun s => h4 s _ rfl rfl rfl⟩
  simp only [MSMEG1.commitAndProve, h1, h2, h3, ok_bind, pure_eq_ok]

theorem MSMEG2.cap {equ : MSMEG2 F G2} {x : List F} {y : List G2} (hx : x ≠ []) (hy : y ≠ [])
    (hd : equ.Dims x.length y.length) {u0 u1 : Com G1} {u' : List (Com G1)}
    (hu : crs.u = u0 :: u1 :: u') (hv : crs.v.length = 2) :
    HonestCap (equ.commitAndProve sch x y crs rng) (fun s cp => equ.verify e s cp crs)
      (tMSMEG2 e (u1 + ⟨0, crs.g1_gen⟩)
        (equLhs (fun (x : F) (y : G2) => x • y) equ.a_consts x equ.b_consts y equ.gamma) =
          tMSMEG2 e (u1 + ⟨0, crs.g1_gen⟩) equ.target) := by
  obtain ⟨xc, r1, h1, o1⟩ := batchCommitScalarToB1_opens (key := crs) (rng := rng) hx (by rw [hu]; simp)
  obtain ⟨yc, r2, h2, o2⟩ := batchCommitG2_opens (F := F) (rng := r1) hy hv
  obtain ⟨pf, r3, h3, -, -, -, h4⟩ := MSMEG2.honest e sch equ x y xc yc crs r2 hx hy hd hu hv o1 o2
  refine ⟨⟨xc, yc, [pf]⟩, r3, ?_, fun s => h4 s _ rfl rfl rfl⟩
  simp only [MSMEG2.commitAndProve, h1, h2, h3, ok_bind, pure_eq_ok]

theorem QuadEqu.cap {equ : QuadEqu F} {x : List F} {y : List F} (hx : x ≠ []) (hy : y ≠ [])
    (hd : equ.Dims x.length y.length) {u0 u1 : Com G1} {u' : List (Com G1)}
    (hu : crs.u = u0 :: u1 :: u') {v0 v1 : Com G2} {v' : List (Com G2)}
    (hv : crs.v = v0 :: v1 :: v') :
    HonestCap (equ.commitAndProve sch x y crs rng) (fun s cp => equ.verify e s cp crs)
      (tQuad e (u1 + ⟨0, crs.g1_gen⟩) (v1 + ⟨0, crs.g2_gen⟩)
        (equLhs (fun x y : F => x * y) equ.a_consts x equ.b_consts y equ.gamma) =
          tQuad e (u1 + ⟨0, crs.g1_gen⟩) (v1 + ⟨0, crs.g2_gen⟩) equ.target) := by
  obtain ⟨xc, r1, h1, o1⟩ := batchCommitScalarToB1_opens (key := crs) (rng := rng) hx (by rw [hu]; simp)
  obtain ⟨yc, r2, h2, o2⟩ := batchCommitScalarToB2_opens (key := crs) (rng := r1) hy (by rw [hv]; simp)
  obtain ⟨pf, r3, h3, -, -, -, h4⟩ := QuadEqu.honest e sch equ x y xc yc crs r2 hx hy hd hu hv o1 o2
  refine ⟨⟨xc, yc, [pf]⟩, r3, ?_, fun s => h4 s _ rfl rfl rfl⟩
  simp only [QuadEqu.commitAndProve, h1, h2, h3, ok_bind, pure_eq_ok]

/-! ### Target equality under a generated CRS -/

theorem GeneratedCrs.tMSMEG1_inj (hc : GeneratedCrs e crs) (he : PrimeGroups e) (h0 : crs.NonzeroGens)
    {v0 v1 : Com G2} {v' : List (Com G2)} (hv : crs.v = v0 :: v1 :: v') :
    Function.Injective (tMSMEG1 e (v1 + ⟨0, crs.g2_gen⟩)) := by
  obtain ⟨a1, t1, a2, t2, hb⟩ := hc.binding
  rw [hb.v] at hv; cases hv
  exact GS.tMSMEG1_inj he h0.2 a2 t2

theorem GeneratedCrs.tMSMEG2_inj (hc : GeneratedCrs e crs) (he : PrimeGroups e) (h0 : crs.NonzeroGens)
    {u0 u1 : Com G1} {u' : List (Com G1)} (hu : crs.u = u0 :: u1 :: u') :
    Function.Injective (tMSMEG2 e (u1 + ⟨0, crs.g1_gen⟩)) := by
  obtain ⟨a1, t1, a2, t2, hb⟩ := hc.binding
  rw [hb.u] at hu; cases hu
  exact GS.tMSMEG2_inj he h0.1 a1 t1

theorem GeneratedCrs.tQuad_inj (hc : GeneratedCrs e crs) (he : PrimeGroups e) (h0 : crs.NonzeroGens)
    {u0 u1 : Com G1} {u' : List (Com G1)} (hu : crs.u = u0 :: u1 :: u')
    {v0 v1 : Com G2} {v' : List (Com G2)} (hv : crs.v = v0 :: v1 :: v') :
    Function.Injective (tQuad e (u1 + ⟨0, crs.g1_gen⟩) (v1 + ⟨0, crs.g2_gen⟩)) := by
  obtain ⟨a1, t1, a2, t2, hb⟩ := hc.binding
  rw [hb.u] at hu; cases hu
  rw [hb.v] at hv; cases hv
  exact GS.tQuad_inj he h0.1 h0.2 a1 t1 a2 t2

theorem cons2_of_length {α : Type} {l : List α} (h : 2 ≤ l.length) : ∃ a b l', l = a :: b :: l' := by
  match l, h with
  | a :: b :: l', _ => exact ⟨a, b, l', rfl⟩

end GS
