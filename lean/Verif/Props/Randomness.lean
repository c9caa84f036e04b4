import Verif.Lemmas.Cap
import Verif.Props.Domains

/-!
# C39: how much randomness is consumed, in which order, and for what

`draws G1 G2 N rng` (`Verif/Spec/Tape.lean`) are the first `N` scalars drawn from the generator `rng` and the
generator's state afterwards.
-/

set_option linter.unusedSectionVars false

namespace GS
variable {F G1 G2 GT : Type} [Field F] [AddCommGroup G1] [Module F G1] [AddCommGroup G2] [Module F G2]
  [AddCommGroup GT] [Module F GT] {ρ ρ' : Type} [Rng ρ F G1 G2] [Rng ρ' F G1 G2]

/-- C39, PPE: a returning `commit_and_prove` has consumed exactly the stated number of draws; they are, in order, the
recorded randomness of the x commitments, of the y commitments, and of the proof. Any other generator (and schedule)
with the same draws gives the same result. -/
theorem C39_ppe (equ : PPE F G1 G2 GT) (x : List G1) (y : List G2) (sch : Nat → Scheduler) (crs : CRS G1 G2 GT) (rng rng' : ρ)
    (cp : CProof F G1 G2) (h : equ.commitAndProve sch x y crs rng = .ok (cp, rng')) :
    (∃ pf, cp.equ_proofs = [pf] ∧ draws (F := F) G1 G2 (2 * x.length + 2 * y.length + 4) rng =
      (cp.xcoms.rand.flatten ++ cp.ycoms.rand.flatten ++ pf.rand.flatten, rng')) ∧
    ∀ (sch' : Nat → Scheduler) (s s' : ρ'),
      draws (F := F) G1 G2 (2 * x.length + 2 * y.length + 4) s = ((draws (F := F) G1 G2 (2 * x.length + 2 * y.length + 4) rng).1, s') →
      equ.commitAndProve sch' x y crs s = .ok (cp, s') := by
  obtain ⟨hx, hy, hd, hu, hv⟩ := ((C36_commit_and_prove sch crs rng).1 equ x y).mp ⟨_, h⟩
  have hm := List.length_pos_iff.mpr hx
  have hn := List.length_pos_iff.mpr hy
  obtain ⟨m, hxm⟩ : ∃ m, x.length = m := ⟨_, rfl⟩
  obtain ⟨n, hyn⟩ : ∃ n, y.length = n := ⟨_, rfl⟩
  rw [hxm] at hm hd
  rw [hyn] at hn hd
  obtain ⟨a, ha⟩ := exists_ofFn equ.a_consts hd.a
  obtain ⟨b, hb⟩ := exists_ofFn equ.b_consts hd.b
  obtain ⟨γ, hγ⟩ := rect_iff.mp (⟨hd.rows, hd.cols⟩ : Rect _ _ equ.gamma)
  obtain ⟨x, rfl⟩ := exists_ofFn x hxm
  obtain ⟨y, rfl⟩ := exists_ofFn y hyn
  obtain ⟨u0, u1, hu⟩ := List.length_eq_two.mp hu
  obtain ⟨v0, v1, hv⟩ := List.length_eq_two.mp hv
  rw [hxm, hyn]
  obtain ⟨R, S, T, hdr⟩ := draws_cut (F := F) (G1 := G1) (G2 := G2) (m := m) (n := n) 2 2 2 2 (2 * m + 2 * n + 4) (by omega) rng
  have key := PPE.cap_draws (sch := sch) hm hn ha hb hγ x y hu hv hdr
  rw [h] at key
  simp only [Except.ok.injEq, Prod.mk.injEq] at key
  obtain ⟨rfl, rfl⟩ := key
  refine ⟨⟨_, rfl, hdr⟩, fun sch' s s' hs => ?_⟩
  rw [congrArg Prod.fst hdr] at hs
  exact PPE.cap_draws (sch := sch') hm hn ha hb hγ x y hu hv hs

/-- C39, MSMEG1: a returning `commit_and_prove` has consumed exactly the stated number of draws; they are, in order, the
recorded randomness of the x commitments, of the y commitments, and of the proof. Any other generator (and schedule)
with the same draws gives the same result. -/
theorem C39_msmeg1 (equ : MSMEG1 F G1) (x : List G1) (y : List F) (sch : Nat → Scheduler) (crs : CRS G1 G2 GT) (rng rng' : ρ)
    (cp : CProof F G1 G2) (h : equ.commitAndProve sch x y crs rng = .ok (cp, rng')) :
    (∃ pf, cp.equ_proofs = [pf] ∧ draws (F := F) G1 G2 (2 * x.length + y.length + 2) rng =
      (cp.xcoms.rand.flatten ++ cp.ycoms.rand.flatten ++ pf.rand.flatten, rng')) ∧
    ∀ (sch' : Nat → Scheduler) (s s' : ρ'),
      draws (F := F) G1 G2 (2 * x.length + y.length + 2) s = ((draws (F := F) G1 G2 (2 * x.length + y.length + 2) rng).1, s') →
      equ.commitAndProve sch' x y crs s = .ok (cp, s') := by
  obtain ⟨hx, hy, hd, hu, hv⟩ := ((C36_commit_and_prove sch crs rng).2.1 equ x y).mp ⟨_, h⟩
  have hm := List.length_pos_iff.mpr hx
  have hn := List.length_pos_iff.mpr hy
  obtain ⟨m, hxm⟩ : ∃ m, x.length = m := ⟨_, rfl⟩
  obtain ⟨n, hyn⟩ : ∃ n, y.length = n := ⟨_, rfl⟩
  rw [hxm] at hm hd
  rw [hyn] at hn hd
  obtain ⟨a, ha⟩ := exists_ofFn equ.a_consts hd.a
  obtain ⟨b, hb⟩ := exists_ofFn equ.b_consts hd.b
  obtain ⟨γ, hγ⟩ := rect_iff.mp (⟨hd.rows, hd.cols⟩ : Rect _ _ equ.gamma)
  obtain ⟨x, rfl⟩ := exists_ofFn x hxm
  obtain ⟨y, rfl⟩ := exists_ofFn y hyn
  obtain ⟨u0, u1, hu⟩ := List.length_eq_two.mp hu
  obtain ⟨v0, v1, v', hv⟩ := cons2_of_length hv
  rw [hxm, hyn]
  obtain ⟨R, S, T, hdr⟩ := draws_cut (F := F) (G1 := G1) (G2 := G2) (m := m) (n := n) 2 1 1 2 (2 * m + n + 2) (by omega) rng
  have key := MSMEG1.cap_draws (sch := sch) hm hn ha hb hγ x y hu hv hdr
  rw [h] at key
  simp only [Except.ok.injEq, Prod.mk.injEq] at key
  obtain ⟨rfl, rfl⟩ := key
  refine ⟨⟨_, rfl, hdr⟩, fun sch' s s' hs => ?_⟩
  rw [congrArg Prod.fst hdr] at hs
  exact MSMEG1.cap_draws (sch := sch') hm hn ha hb hγ x y hu hv hs

/-- C39, MSMEG2: a returning `commit_and_prove` has consumed exactly the stated number of draws; they are, in order, the
recorded randomness of the x commitments, of the y commitments, and of the proof. Any other generator (and schedule)
with the same draws gives the same result. -/
theorem C39_msmeg2 (equ : MSMEG2 F G2) (x : List F) (y : List G2) (sch : Nat → Scheduler) (crs : CRS G1 G2 GT) (rng rng' : ρ)
    (cp : CProof F G1 G2) (h : equ.commitAndProve sch x y crs rng = .ok (cp, rng')) :
    (∃ pf, cp.equ_proofs = [pf] ∧ draws (F := F) G1 G2 (x.length + 2 * y.length + 2) rng =
      (cp.xcoms.rand.flatten ++ cp.ycoms.rand.flatten ++ pf.rand.flatten, rng')) ∧
    ∀ (sch' : Nat → Scheduler) (s s' : ρ'),
      draws (F := F) G1 G2 (x.length + 2 * y.length + 2) s = ((draws (F := F) G1 G2 (x.length + 2 * y.length + 2) rng).1, s') →
      equ.commitAndProve sch' x y crs s = .ok (cp, s') := by
  obtain ⟨hx, hy, hd, hu, hv⟩ := ((C36_commit_and_prove sch crs rng).2.2.1 equ x y).mp ⟨_, h⟩
  have hm := List.length_pos_iff.mpr hx
  have hn := List.length_pos_iff.mpr hy
  obtain ⟨m, hxm⟩ : ∃ m, x.length = m := ⟨_, rfl⟩
  obtain ⟨n, hyn⟩ : ∃ n, y.length = n := ⟨_, rfl⟩
  rw [hxm] at hm hd
  rw [hyn] at hn hd
  obtain ⟨a, ha⟩ := exists_ofFn equ.a_consts hd.a
  obtain ⟨b, hb⟩ := exists_ofFn equ.b_consts hd.b
  obtain ⟨γ, hγ⟩ := rect_iff.mp (⟨hd.rows, hd.cols⟩ : Rect _ _ equ.gamma)
  obtain ⟨x, rfl⟩ := exists_ofFn x hxm
  obtain ⟨y, rfl⟩ := exists_ofFn y hyn
  obtain ⟨u0, u1, u', hu⟩ := cons2_of_length hu
  obtain ⟨v0, v1, hv⟩ := List.length_eq_two.mp hv
  rw [hxm, hyn]
  obtain ⟨R, S, T, hdr⟩ := draws_cut (F := F) (G1 := G1) (G2 := G2) (m := m) (n := n) 1 2 2 1 (m + 2 * n + 2) (by omega) rng
  have key := MSMEG2.cap_draws (sch := sch) hm hn ha hb hγ x y hu hv hdr
  rw [h] at key
  simp only [Except.ok.injEq, Prod.mk.injEq] at key
  obtain ⟨rfl, rfl⟩ := key
  refine ⟨⟨_, rfl, hdr⟩, fun sch' s s' hs => ?_⟩
  rw [congrArg Prod.fst hdr] at hs
  exact MSMEG2.cap_draws (sch := sch') hm hn ha hb hγ x y hu hv hs

/-- C39, QuadEqu: a returning `commit_and_prove` has consumed exactly the stated number of draws; they are, in order, the
recorded randomness of the x commitments, of the y commitments, and of the proof. Any other generator (and schedule)
with the same draws gives the same result. -/
theorem C39_quad (equ : QuadEqu F) (x : List F) (y : List F) (sch : Nat → Scheduler) (crs : CRS G1 G2 GT) (rng rng' : ρ)
    (cp : CProof F G1 G2) (h : equ.commitAndProve sch x y crs rng = .ok (cp, rng')) :
    (∃ pf, cp.equ_proofs = [pf] ∧ draws (F := F) G1 G2 (x.length + y.length + 1) rng =
      (cp.xcoms.rand.flatten ++ cp.ycoms.rand.flatten ++ pf.rand.flatten, rng')) ∧
    ∀ (sch' : Nat → Scheduler) (s s' : ρ'),
      draws (F := F) G1 G2 (x.length + y.length + 1) s = ((draws (F := F) G1 G2 (x.length + y.length + 1) rng).1, s') →
      equ.commitAndProve sch' x y crs s = .ok (cp, s') := by
  obtain ⟨hx, hy, hd, hu, hv⟩ := ((C36_commit_and_prove sch crs rng).2.2.2 equ x y).mp ⟨_, h⟩
  have hm := List.length_pos_iff.mpr hx
  have hn := List.length_pos_iff.mpr hy
  obtain ⟨m, hxm⟩ : ∃ m, x.length = m := ⟨_, rfl⟩
  obtain ⟨n, hyn⟩ : ∃ n, y.length = n := ⟨_, rfl⟩
  rw [hxm] at hm hd
  rw [hyn] at hn hd
  obtain ⟨a, ha⟩ := exists_ofFn equ.a_consts hd.a
  obtain ⟨b, hb⟩ := exists_ofFn equ.b_consts hd.b
  obtain ⟨γ, hγ⟩ := rect_iff.mp (⟨hd.rows, hd.cols⟩ : Rect _ _ equ.gamma)
  obtain ⟨x, rfl⟩ := exists_ofFn x hxm
  obtain ⟨y, rfl⟩ := exists_ofFn y hyn
  obtain ⟨u0, u1, u', hu⟩ := cons2_of_length hu
  obtain ⟨v0, v1, v', hv⟩ := cons2_of_length hv
  rw [hxm, hyn]
  obtain ⟨R, S, T, hdr⟩ := draws_cut (F := F) (G1 := G1) (G2 := G2) (m := m) (n := n) 1 1 1 1 (m + n + 1) (by omega) rng
  have key := QuadEqu.cap_draws (sch := sch) hm hn ha hb hγ x y hu hv hdr
  rw [h] at key
  simp only [Except.ok.injEq, Prod.mk.injEq] at key
  obtain ⟨rfl, rfl⟩ := key
  refine ⟨⟨_, rfl, hdr⟩, fun sch' s s' hs => ?_⟩
  rw [congrArg Prod.fst hdr] at hs
  exact QuadEqu.cap_draws (sch := sch') hm hn ha hb hγ x y hu hv hs

/-- C39: `prove` alone consumes 4, 2, 2, 1 draws, recorded row by row in the proof, and depends on the generator
only through them. -/
theorem C39_prove (sch sch' : Nat → Scheduler) (crs : CRS G1 G2 GT) (rng rng' : ρ) (s s' : ρ') (xc : Commit F G1)
    (yc : Commit F G2) (pf : EquProof F G1 G2) :
    (∀ (equ : PPE F G1 G2 GT) x y, equ.prove sch x y xc yc crs rng = .ok (pf, rng') →
      draws (F := F) G1 G2 4 rng = (pf.rand.flatten, rng') ∧
      (draws (F := F) G1 G2 4 s = (pf.rand.flatten, s') → equ.prove sch' x y xc yc crs s = .ok (pf, s'))) ∧
    (∀ (equ : MSMEG1 F G1) x y, equ.prove sch x y xc yc crs rng = .ok (pf, rng') →
      draws (F := F) G1 G2 2 rng = (pf.rand.flatten, rng') ∧
      (draws (F := F) G1 G2 2 s = (pf.rand.flatten, s') → equ.prove sch' x y xc yc crs s = .ok (pf, s'))) ∧
    (∀ (equ : MSMEG2 F G2) x y, equ.prove sch x y xc yc crs rng = .ok (pf, rng') →
      draws (F := F) G1 G2 2 rng = (pf.rand.flatten, rng') ∧
      (draws (F := F) G1 G2 2 s = (pf.rand.flatten, s') → equ.prove sch' x y xc yc crs s = .ok (pf, s'))) ∧
    (∀ (equ : QuadEqu F) x y, equ.prove sch x y xc yc crs rng = .ok (pf, rng') →
      draws (F := F) G1 G2 1 rng = (pf.rand.flatten, rng') ∧
      (draws (F := F) G1 G2 1 s = (pf.rand.flatten, s') → equ.prove sch' x y xc yc crs s = .ok (pf, s'))) := by
  refine ⟨?_, ?_, ?_, ?_⟩ <;> intro equ x y h
  · rw [PPE.prove_eq] at h ⊢
    have hr := proveCore_rand h
    obtain ⟨rfl, h'⟩ := proveCore_rng.mp h
    refine ⟨by rw [hr.2.1]; rfl, fun hs => ?_⟩
    rw [hr.2.1] at hs
    simp only [draws, List.flatten_cons, List.flatten_nil, List.cons_append, List.nil_append, Prod.mk.injEq,
      List.cons.injEq, and_true] at hs
    refine proveCore_rng.mpr ⟨?_, ?_⟩
    · simp only [hs]
    · simp only [hs]
      exact proveCore_sch.mp h'
  · rw [MSMEG1.prove_eq] at h ⊢
    have hr := proveCore_rand h
    obtain ⟨rfl, h'⟩ := proveCore_rng.mp h
    refine ⟨by rw [hr.2.1]; rfl, fun hs => ?_⟩
    rw [hr.2.1] at hs
    simp only [draws, List.flatten_cons, List.flatten_nil, List.cons_append, List.nil_append, Prod.mk.injEq,
      List.cons.injEq, and_true] at hs
    refine proveCore_rng.mpr ⟨?_, ?_⟩
    · simp only [hs]
    · simp only [hs]
      exact proveCore_sch.mp h'
  · rw [MSMEG2.prove_eq] at h ⊢
    have hr := proveCore_rand h
    obtain ⟨rfl, h'⟩ := proveCore_rng.mp h
    refine ⟨by rw [hr.2.1]; rfl, fun hs => ?_⟩
    rw [hr.2.1] at hs
    simp only [draws, List.flatten_cons, List.flatten_nil, List.cons_append, List.nil_append, Prod.mk.injEq,
      List.cons.injEq, and_true] at hs
    refine proveCore_rng.mpr ⟨?_, ?_⟩
    · simp only [hs]
    · simp only [hs]
      exact proveCore_sch.mp h'
  · rw [QuadEqu.prove_eq] at h ⊢
    have hr := proveCore_rand h
    obtain ⟨rfl, h'⟩ := proveCore_rng.mp h
    refine ⟨by rw [hr.2.1]; rfl, fun hs => ?_⟩
    rw [hr.2.1] at hs
    simp only [draws, List.flatten_cons, List.flatten_nil, List.cons_append, List.nil_append, Prod.mk.injEq,
      List.cons.injEq, and_true] at hs
    refine proveCore_rng.mpr ⟨?_, ?_⟩
    · simp only [hs]
    · simp only [hs]
      exact proveCore_sch.mp h'

/-- A run whose draws are known. -/
example (sch : Nat → Scheduler) (rng' : List Ex.K) (cp : CProof Ex.K Ex.K Ex.K)
    (h : Ex.quad7.commitAndProve sch [2] [3, 4] Ex.crs7 [1, 2, 3, 4, 5] = .ok (cp, rng')) : rng' = [5] := by
  obtain ⟨⟨pf, -, h1⟩, -⟩ := C39_quad (ρ' := Nat) Ex.quad7 [2] [3, 4] sch Ex.crs7 [1, 2, 3, 4, 5] rng' cp h
  exact (congrArg Prod.snd h1).symm

/-! ### Instances -/

namespace Ex

example := C39_ppe (ρ' := List K) ppe7 [2] [3, 4] _ crs7 (1 : Nat) _ _ ppe7_made
example := C39_msmeg1 (ρ' := List K) msm1_7 [2] [3, 4] _ crs7 (1 : Nat) _ _ msm1_7_made
example := C39_msmeg2 (ρ' := List K) msm2_7 [2] [3, 4] _ crs7 (1 : Nat) _ _ msm2_7_made
example := C39_quad (ρ' := List K) quad7 [2] [3, 4] _ crs7 (1 : Nat) _ _ quad7_made

end Ex

end GS
