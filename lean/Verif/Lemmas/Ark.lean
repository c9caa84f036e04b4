import Verif.Lemmas.RawVerify
import Verif.Spec.Ark

/-! # Verifying with a pairing that may panic -/

set_option linter.unusedSectionVars false

namespace GS.Ark
open Raw

theorem lift_eq {α : Type} (x : Res α) : (liftM x : ArkRes α) = ofRes x := rfl

theorem ofRes_bind {α β : Type} (x : Res α) (f : α → Res β) : ofRes (x >>= f) = ofRes x >>= fun a => ofRes (f a) := by
  cases x <;> rfl

theorem ofRes_map_bind {α β γ : Type} (x : Res α) (h : α → β) (f : β → ArkRes γ) : (ofRes (x.map h) >>= f) = ofRes x >>= fun a => f (h a) := by
  cases x <;> rfl

theorem ofRes_pure {α : Type} (a : α) : ofRes (pure a) = pure a := rfl

theorem ofRes_inj {α : Type} {x y : Res α} (h : ofRes x = ofRes y) : x = y := by
  cases x <;> cases y <;> simp_all [ofRes]

theorem ofRes_ok {α : Type} {x : Res α} {a : α} : ofRes x = .ok a ↔ x = .ok a := by
  cases x <;> simp [ofRes]

/-- The call does the same, or panics in a pairing. -/
def Refines {α : Type} (x : ArkRes α) (y : Res α) : Prop := x = ofRes y ∨ x = .error .pairing

theorem Refines.bind {α β : Type} {x : ArkRes α} {y : Res α} {f : α → ArkRes β} {g : α → Res β} (h : Refines x y) (hf : ∀ a, Refines (f a) (g a)) :
    Refines (x >>= f) (y >>= g) := by
  rcases h with rfl | rfl
  · cases y with
    | ok a => exact hf a
    | error p => exact .inl rfl
  · exact .inr rfl

theorem Refines.lift {α : Type} (y : Res α) : Refines (liftM y : ArkRes α) y := .inl rfl
theorem Refines.pure {α : Type} (a : α) : Refines (pure a) (pure a) := .inl rfl

variable {F H1 H2 GT R1 R2 RT : Type} [Field F] [Add H1] [Neg H1] [Zero H1] [SMul F H1] [Add H2] [Neg H2] [Zero H2] [SMul F H2]
  [Add R1] [Neg R1] [Zero R1] [SMul F R1] [Add R2] [Neg R2] [Zero R2] [SMul F R2] [Add GT] [Zero GT] [Add RT] [Zero RT]
  {pr : ArkPairing R1 R2 RT} {e' : R1 → R2 → RT} {j1 : H1 → R1} {j2 : H2 → R2} {jT : GT → RT}

theorem four {a b c d : ArkRes RT} {x y z w : RT} (ha : Refines a (.ok x)) (hb : Refines b (.ok y)) (hc : Refines c (.ok z)) (hd : Refines d (.ok w)) :
    Refines (do let t0 ← a; let t1 ← b; let t2 ← c; let t3 ← d; pure (⟨t0, t1, t2, t3⟩ : ComT RT)) (.ok ⟨x, y, z, w⟩) := by
  rcases ha with rfl | rfl
  · rcases hb with rfl | rfl
    · rcases hc with rfl | rfl
      · rcases hd with rfl | rfl
        · exact .inl rfl
        · exact .inr rfl
      · exact .inr rfl
    · exact .inr rfl
  · exact .inr rfl

/-- Where the pairing returns, it returns `e'`, and its sums. -/
def Agrees (pr : ArkPairing R1 R2 RT) (e' : R1 → R2 → RT) : Prop :=
  (∀ x y t, pr.one x y = some t → t = e' x y) ∧ ∀ xs ys t, xs.length = ys.length → pr.multi xs ys = some t → t = multiPairing e' xs ys

theorem pairing_refines (h : Agrees pr e') (x : Com R1) (y : Com R2) : Refines (Ark.pairing pr x y) (pure (Raw.pairing e' x y)) := by
  have key : ∀ x y, Refines (ofPairing (pr.one x y)) (.ok (e' x y)) := fun x y => by
    cases hp : pr.one x y with
    | none => exact .inr rfl
    | some t => rw [h.1 x y t hp]; exact .inl rfl
  unfold Ark.pairing Raw.pairing
  exact four (key _ _) (key _ _) (key _ _) (key _ _)

theorem pairingSum_refines (h : Agrees pr e') (xs : List (Com R1)) (ys : List (Com R2)) : Refines (Ark.pairingSum pr xs ys) (Raw.pairingSum e' xs ys) := by
  by_cases hl : xs.length = ys.length
  · have key : ∀ (p : Com R1 → R1) (q : Com R2 → R2), Refines (ofPairing (pr.multi (xs.map p) (ys.map q))) (.ok (multiPairing e' (xs.map p) (ys.map q))) := fun p q => by
      cases hp : pr.multi (xs.map p) (ys.map q) with
      | none => exact .inr rfl
      | some t => rw [h.2 _ _ t (by simpa using hl) hp]; exact .inl rfl
    unfold Ark.pairingSum Raw.pairingSum
    refine (Refines.lift _).bind fun _ => ?_
    exact four (key _ _) (key _ _) (key _ _) (key _ _)
  · left
    unfold Ark.pairingSum Raw.pairingSum assertEq
    rw [if_neg hl]
    rfl

/-- A pairing at the end of a call. -/
theorem pairing_tail {β : Type} (h : Agrees pr e') (x : Com R1) (y : Com R2) {f : ComT RT → ArkRes β} {g : ComT RT → Res β} (hf : ∀ a, Refines (f a) (g a)) :
    Refines (Ark.pairing pr x y >>= f) (g (Raw.pairing e' x y)) := (pairing_refines h x y).bind hf

/-- For all values, the verifiers return what they would if the pairing always returned, or panic in a pairing. -/
theorem verify_refines [DecidableEq RT] (h : Agrees pr e') (sch : Scheduler) (crs : CRS R1 R2 RT) (cp : CProof F R1 R2) (equ : OneEqu F R1 R2 RT) :
    Refines (equ.verifyArk pr sch crs cp) (equ.verifyOn e' sch crs cp) := by
  have l : ∀ {α : Type} (y : Res α), Refines (liftM y : ArkRes α) y := fun y => .inl rfl
  have s := pairingSum_refines h
  cases equ with
  | ppe equ =>
    exact (l _).bind fun _ => (l _).bind fun pf => (l _).bind fun _ => (s _ _).bind fun _ => (s _ _).bind fun _ => (l _).bind fun _ => (l _).bind fun _ =>
      (s _ _).bind fun _ => (s _ _).bind fun _ => (s _ _).bind fun _ => .pure _
  | msmeg1 equ =>
    refine (l _).bind fun _ => (l _).bind fun pf => (l _).bind fun _ => (s _ _).bind fun _ => (l _).bind fun _ => (s _ _).bind fun _ => (l _).bind fun _ =>
      (l _).bind fun _ => (s _ _).bind fun _ => Refines.bind ?_ fun _ => (s _ _).bind fun _ => (l _).bind fun _ => (l _).bind fun _ =>
        pairing_tail h _ _ fun _ => .pure _
    exact (l _).bind fun _ => pairing_refines h _ _
  | msmeg2 equ =>
    refine (l _).bind fun _ => (l _).bind fun pf => (l _).bind fun _ => (l _).bind fun _ => (s _ _).bind fun _ => (s _ _).bind fun _ => (l _).bind fun _ =>
      (l _).bind fun _ => (s _ _).bind fun _ => Refines.bind ?_ fun _ => (l _).bind fun _ => (l _).bind fun _ => pairing_tail h _ _ fun _ =>
        (s _ _).bind fun _ => .pure _
    exact (l _).bind fun _ => pairing_refines h _ _
  | quad equ =>
    refine (l _).bind fun _ => (l _).bind fun pf => (l _).bind fun _ => (l _).bind fun _ => (s _ _).bind fun _ => (l _).bind fun _ => (s _ _).bind fun _ =>
      (l _).bind fun _ => (l _).bind fun _ => (s _ _).bind fun _ => Refines.bind ?_ fun _ => (l _).bind fun _ => (l _).bind fun _ => pairing_tail h _ _ fun _ =>
        (l _).bind fun _ => (l _).bind fun _ => pairing_tail h _ _ fun _ => .pure _
    exact (l _).bind fun _ => (l _).bind fun _ => pairing_refines h _ _

/-- The pairing returns on values that represent elements of the groups. -/
def Returns (pr : ArkPairing R1 R2 RT) (e' : R1 → R2 → RT) (j1 : H1 → R1) (j2 : H2 → R2) : Prop :=
  (∀ x y, pr.one (j1 x) (j2 y) = some (e' (j1 x) (j2 y))) ∧
  ∀ (xs : List H1) (ys : List H2), xs.length = ys.length → pr.multi (xs.map j1) (ys.map j2) = some (multiPairing e' (xs.map j1) (ys.map j2))

theorem pairing_returns (h : Returns pr e' j1 j2) (x : Com H1) (y : Com H2) : Ark.pairing pr (x.on j1) (y.on j2) = .ok (Raw.pairing e' (x.on j1) (y.on j2)) := by
  unfold Ark.pairing Raw.pairing Com.on
  simp only [h.1 _ _]
  rfl

theorem pairingSum_returns (h : Returns pr e' j1 j2) (xs : List (Com H1)) (ys : List (Com H2)) :
    Ark.pairingSum pr (xs.map (Com.on j1)) (ys.map (Com.on j2)) = ofRes (Raw.pairingSum e' (xs.map (Com.on j1)) (ys.map (Com.on j2))) := by
  by_cases hl : xs.length = ys.length
  · have key : ∀ (p : Com R1 → R1) (p' : Com H1 → H1) (q : Com R2 → R2) (q' : Com H2 → H2), (∀ c, p (c.on j1) = j1 (p' c)) → (∀ c, q (c.on j2) = j2 (q' c)) →
        ofPairing (pr.multi ((xs.map (Com.on j1)).map p) ((ys.map (Com.on j2)).map q)) =
          .ok (multiPairing e' ((xs.map (Com.on j1)).map p) ((ys.map (Com.on j2)).map q)) := by
      intro p p' q q' hp hq
      have a : (xs.map (Com.on j1)).map p = (xs.map p').map j1 := by simp only [List.map_map, Function.comp_def, hp]
      have b : (ys.map (Com.on j2)).map q = (ys.map q').map j2 := by simp only [List.map_map, Function.comp_def, hq]
      rw [a, b, h.2 _ _ (by simpa using hl)]
      rfl
    unfold Ark.pairingSum Raw.pairingSum assertEq
    rw [if_pos (by simpa using hl),
      key (fun c => c.c0) (fun c => c.c0) (fun c => c.c0) (fun c => c.c0) (fun _ => rfl) (fun _ => rfl),
      key (fun c => c.c0) (fun c => c.c0) (fun c => c.c1) (fun c => c.c1) (fun _ => rfl) (fun _ => rfl),
      key (fun c => c.c1) (fun c => c.c1) (fun c => c.c0) (fun c => c.c0) (fun _ => rfl) (fun _ => rfl),
      key (fun c => c.c1) (fun c => c.c1) (fun c => c.c1) (fun c => c.c1) (fun _ => rfl) (fun _ => rfl)]
    rfl
  · unfold Ark.pairingSum Raw.pairingSum assertEq
    rw [if_neg (by simpa using hl)]
    rfl

theorem pairing_returns' {β : Type} (h : Returns pr e' j1 j2) (x : Com H1) (y : Com H2) (f : ComT RT → ArkRes β) :
    (Ark.pairing pr (x.on j1) (y.on j2) >>= f) = f (Raw.pairing e' (x.on j1) (y.on j2)) := by
  rw [pairing_returns h]; rfl

theorem target1_returns (h : Returns pr e' j1 j2) (h1 : Carries F j1) (h2 : Carries F j2) (z : H1) (key : CRS H1 H2 GT) :
    Ark.linearMapMSMEG1 F pr (j1 z) (key.rep j1 j2 jT) = ofRes (Raw.linearMapMSMEG1 F e' (j1 z) (key.rep j1 j2 jT)) := by
  unfold Ark.linearMapMSMEG1 Raw.linearMapMSMEG1
  rw [scalar2_rep h2, lift_eq, ofRes_bind, ofRes_map_bind, ofRes_map_bind, ← on_emb' h1]
  congr 1
  funext c
  exact pairing_returns h _ _

theorem target2_returns (h : Returns pr e' j1 j2) (h1 : Carries F j1) (h2 : Carries F j2) (z : H2) (key : CRS H1 H2 GT) :
    Ark.linearMapMSMEG2 F pr (j2 z) (key.rep j1 j2 jT) = ofRes (Raw.linearMapMSMEG2 F e' (j2 z) (key.rep j1 j2 jT)) := by
  unfold Ark.linearMapMSMEG2 Raw.linearMapMSMEG2
  rw [scalar1_rep h1, lift_eq, ofRes_bind, ofRes_map_bind, ofRes_map_bind, ← on_emb' h2]
  congr 1
  funext c
  exact pairing_returns h _ _

theorem targetQuad_returns (h : Returns pr e' j1 j2) (h1 : Carries F j1) (h2 : Carries F j2) (z : F) (key : CRS H1 H2 GT) :
    Ark.linearMapQuad pr z (key.rep j1 j2 jT) = ofRes (Raw.linearMapQuad e' z (key.rep j1 j2 jT)) := by
  unfold Ark.linearMapQuad Raw.linearMapQuad
  rw [scalar1_rep h1, scalar2_rep h2, lift_eq, ofRes_bind, ofRes_map_bind, ofRes_map_bind]
  congr 1
  funext c
  rw [lift_eq, ofRes_bind, ofRes_map_bind, ofRes_map_bind]
  congr 1
  funext d
  rw [← on_scalarMul' h2]
  exact pairing_returns h _ _

/-- On values that represent elements of the groups, the verifiers do what they would if the pairing always returned. -/
theorem verify_returns [DecidableEq RT] (h : Returns pr e' j1 j2) (h1 : Carries F j1) (h2 : Carries F j2)
    (sch : Scheduler) (crs : CRS H1 H2 GT) (cp : CProof F H1 H2) (equ : OneEqu F H1 H2 GT) :
    (equ.rep j1 j2 jT).verifyArk pr sch (crs.rep j1 j2 jT) (cp.on j1 j2) = ofRes ((equ.rep j1 j2 jT).verifyOn e' sch (crs.rep j1 j2 jT) (cp.on j1 j2)) := by
  have hu : (crs.rep j1 j2 jT).u = crs.u.map (Com.on j1) := rfl
  have hv : (crs.rep j1 j2 jT).v = crs.v.map (Com.on j2) := rfl
  cases equ with
  | ppe equ =>
    simp only [OneEqu.rep, OneEqu.verifyArk, OneEqu.verifyOn, PPE.verifyArk, PPE.verifyRaw, CProof.on, List.length_map, idx_map, lift_eq, ofRes_bind, ofRes_map_bind, ofRes_pure]
    congr 1; funext _
    congr 1; funext pf
    simp only [PPE.rep, EquProof.on, Commit.on, hu, hv, batch1_nat h1, batch2_nat h2, vecToColVec_map, leftMul_nat h2, ofRes_map_bind,
      colVecToVec_map, pairingSum_returns h]
  | msmeg1 equ =>
    simp only [OneEqu.rep, OneEqu.verifyArk, OneEqu.verifyOn, MSMEG1.verifyArk, MSMEG1.verifyRaw, CProof.on, List.length_map, idx_map, lift_eq, ofRes_bind, ofRes_map_bind, ofRes_pure]
    congr 1; funext _
    congr 1; funext pf
    simp only [MSMEG1.on, EquProof.on, Commit.on, hu, hv, batch1_nat h1, batchScalar2_rep (j1 := j1) (jT := jT) h2, vecToColVec_map, leftMul_nat h2, ofRes_map_bind,
      colVecToVec_map, pairingSum_returns h, target1_returns h h1 h2, idx_map, pairing_returns' h]
  | msmeg2 equ =>
    simp only [OneEqu.rep, OneEqu.verifyArk, OneEqu.verifyOn, MSMEG2.verifyArk, MSMEG2.verifyRaw, CProof.on, List.length_map, idx_map, lift_eq, ofRes_bind, ofRes_map_bind, ofRes_pure]
    congr 1; funext _
    congr 1; funext pf
    simp only [MSMEG2.on, EquProof.on, Commit.on, hu, hv, batch2_nat h2, batchScalar1_rep (j2 := j2) (jT := jT) h1, vecToColVec_map, leftMul_nat h2, ofRes_map_bind,
      colVecToVec_map, pairingSum_returns h, target2_returns h h1 h2, idx_map, pairing_returns' h]
  | quad equ =>
    simp only [OneEqu.rep, OneEqu.verifyArk, OneEqu.verifyOn, QuadEqu.verifyArk, QuadEqu.verifyRaw, CProof.on, List.length_map, idx_map, lift_eq, ofRes_bind, ofRes_map_bind, ofRes_pure]
    congr 1; funext _
    congr 1; funext pf
    simp only [EquProof.on, Commit.on, hu, hv, batchScalar1_rep (j2 := j2) (jT := jT) h1, batchScalar2_rep (j1 := j1) (jT := jT) h2, vecToColVec_map, leftMul_nat h2, ofRes_map_bind,
      colVecToVec_map, pairingSum_returns h, targetQuad_returns h h1 h2, idx_map, pairing_returns' h]

/-! ### A pairing that panics -/

theorem stuck {α β : Type} {x : ArkRes α} {f f' : α → ArkRes β} {b : β} {p : ArkPanic} (h : (x >>= f) = .ok b) (hf : ∀ a, f a = .ok b → f' a = .error p) :
    (x >>= f') = .error p := by
  cases x with
  | ok a => exact hf a h
  | error q => cases h

theorem stuck_to {α β : Type} {x x' : ArkRes α} {f f' : α → ArkRes β} {a a' : α} {b : β} {p : ArkPanic} (h : (x >>= f) = .ok b) (hx : x = .ok a) (hx' : x' = .ok a')
    (hf : f a = .ok b → f' a' = .error p) : (x' >>= f') = .error p := by
  subst hx hx'
  exact hf h

theorem stuck_here {α β : Type} {x x' : ArkRes α} {f f' : α → ArkRes β} {b : β} {p : ArkPanic} (_ : (x >>= f) = .ok b) (hx : x' = .error p) :
    (x' >>= f') = .error p := by
  rw [hx]; rfl

/-- If the first part of the proof is replaced by one that the pairing panics on, verification panics. -/
theorem verify_panics [DecidableEq RT] {sch : Scheduler} {crs : CRS R1 R2 RT} {cp : CProof F R1 R2} {equ : OneEqu F R1 R2 RT} {b : Bool}
    (h : equ.verifyArk pr sch crs cp = .ok b) {u0 : Com R1} {us : List (Com R1)} (hu : crs.u = u0 :: us) {pf : EquProof F R1 R2} (hp : cp.equ_proofs = [pf])
    {c : Com R2} {ps : List (Com R2)} (hpi : pf.pi = c :: ps) {c' : Com R2} (h1 : pr.one u0.c0 c'.c0 = none)
    (hm : ∀ xs ys, pr.multi (u0.c0 :: xs) (c'.c0 :: ys) = none) :
    equ.verifyArk pr sch crs { cp with equ_proofs := [{ pf with pi := c' :: ps }] } = .error .pairing := by
  obtain ⟨u, v, g1, g2, gt⟩ := crs
  obtain ⟨xc, yc, eps⟩ := cp
  obtain ⟨pi, theta, ty, rnd⟩ := pf
  simp only at hu hp hpi
  subst hu hp hpi
  have bad1 : Ark.pairing pr u0 c' = .error .pairing := by unfold Ark.pairing; rw [h1]; rfl
  have badm : us.length = ps.length → Ark.pairingSum pr (u0 :: us) (c' :: ps) = .error .pairing := fun hl => by
    unfold Ark.pairingSum assertEq
    rw [if_pos (by simp [hl]), List.map_cons, List.map_cons, hm]
    rfl
  have len : ∀ {f : ComT RT → ArkRes Bool}, (Ark.pairingSum pr (u0 :: us) (c :: ps) >>= f) = .ok b → us.length = ps.length := fun {f} h => by
    by_contra hl
    unfold Ark.pairingSum assertEq at h
    rw [if_neg (by simpa using hl)] at h
    cases h
  cases equ with
  | ppe equ =>
    refine stuck h fun _ h => ?_
    refine stuck_to h rfl rfl fun h => ?_
    refine stuck h fun _ h => stuck h fun _ h => stuck h fun _ h => stuck h fun _ h => stuck h fun _ h => stuck h fun _ h => stuck_here h (badm (len h))
  | msmeg1 equ =>
    refine stuck h fun _ h => ?_
    refine stuck_to h rfl rfl fun h => ?_
    refine stuck h fun _ h => stuck h fun _ h => stuck h fun _ h => stuck h fun _ h => stuck h fun _ h => stuck h fun _ h => stuck h fun _ h => stuck h fun _ h =>
      stuck_here h (badm (len h))
  | msmeg2 equ =>
    refine stuck h fun _ h => ?_
    refine stuck_to h rfl rfl fun h => ?_
    refine stuck h fun _ h => stuck h fun _ h => stuck h fun _ h => stuck h fun _ h => stuck h fun _ h => stuck h fun _ h => stuck h fun _ h => stuck h fun _ h => ?_
    show (Ark.pairing pr u0 c' >>= _) = _
    rw [bad1]
    rfl
  | quad equ =>
    refine stuck h fun _ h => ?_
    refine stuck_to h rfl rfl fun h => ?_
    refine stuck h fun _ h => stuck h fun _ h => stuck h fun _ h => stuck h fun _ h => stuck h fun _ h => stuck h fun _ h => stuck h fun _ h => stuck h fun _ h =>
      stuck h fun _ h => ?_
    show (Ark.pairing pr u0 c' >>= _) = _
    rw [bad1]
    rfl

end GS.Ark
