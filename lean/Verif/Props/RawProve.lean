import Verif.Lemmas.RawProve
import Verif.Props.Raw
import Mathlib.Algebra.Module.ZMod
import Mathlib.Data.Nat.ChineseRemainder
import Mathlib.AlgebraicGeometry.EllipticCurve.Affine.Point

/-!
# C106: committing to and proving about points outside the subgroup of prime order
-/

set_option linter.unusedSectionVars false

namespace GS
variable {F G1 G2 GT H1 H2 : Type} [Field F] [AddCommGroup G1] [SMul F G1] [AddCommGroup G2] [SMul F G2]
  [AddCommGroup GT] [AddCommGroup H1] [SMul F H1] [AddCommGroup H2] [SMul F H2] {f1 : G1 → H1} {f2 : G2 → H2}
  {ρ : Type} [Rng ρ F G1 G2] [Rng ρ F H1 H2]

section agrees
variable {M1 M2 : Type} [AddCommGroup M1] [Module F M1] [AddCommGroup M2] [Module F M2] [Rng ρ F M1 M2]

/-- C106. The commitment functions modelled without assuming any law of the points are those of the other properties where the points form
a module. -/
theorem C106_commit_agrees (crs : CRS M1 M2 GT) (rng : ρ) :
    (∀ x : M1, Raw.commitG1 (F := F) x crs rng = commitG1 x crs rng) ∧
    (∀ x : List M1, Raw.batchCommitG1 (F := F) x crs rng = batchCommitG1 x crs rng) ∧
    (∀ x : F, Raw.commitScalarToB1 x crs rng = commitScalarToB1 x crs rng) ∧
    (∀ x : List F, Raw.batchCommitScalarToB1 x crs rng = batchCommitScalarToB1 x crs rng) ∧
    (∀ y : M2, Raw.commitG2 (F := F) y crs rng = commitG2 y crs rng) ∧
    (∀ y : List M2, Raw.batchCommitG2 (F := F) y crs rng = batchCommitG2 y crs rng) ∧
    (∀ y : F, Raw.commitScalarToB2 y crs rng = commitScalarToB2 y crs rng) ∧
    (∀ y : List F, Raw.batchCommitScalarToB2 y crs rng = batchCommitScalarToB2 y crs rng) :=
  ⟨fun _ => rfl, fun _ => rfl, fun _ => rfl, fun _ => rfl, fun _ => rfl, fun _ => rfl, fun _ => rfl, fun _ => rfl⟩

/-- C106. So are the provers. -/
theorem C106_prove_agrees (sch : Nat → Scheduler) (xc : Commit F M1) (yc : Commit F M2) (crs : CRS M1 M2 GT) (rng : ρ) :
    (∀ (equ : PPE F M1 M2 GT) x y, equ.proveRaw sch x y xc yc crs rng = equ.prove sch x y xc yc crs rng ∧
      equ.commitAndProveRaw sch x y crs rng = equ.commitAndProve sch x y crs rng) ∧
    (∀ (equ : MSMEG1 F M1) x y, equ.proveRaw sch x y xc yc crs rng = equ.prove sch x y xc yc crs rng ∧
      equ.commitAndProveRaw sch x y crs rng = equ.commitAndProve sch x y crs rng) ∧
    (∀ (equ : MSMEG2 F M2) x y, equ.proveRaw sch x y xc yc crs rng = equ.prove sch x y xc yc crs rng ∧
      equ.commitAndProveRaw sch x y crs rng = equ.commitAndProve sch x y crs rng) ∧
    (∀ (equ : QuadEqu F) x y, equ.proveRaw sch x y xc yc crs rng = equ.prove sch x y xc yc crs rng ∧
      equ.commitAndProveRaw sch x y crs rng = equ.commitAndProve sch x y crs rng) :=
  ⟨fun _ _ _ => ⟨rfl, rfl⟩, fun _ _ _ => ⟨rfl, rfl⟩, fun _ _ _ => ⟨rfl, rfl⟩, fun _ _ _ => ⟨rfl, rfl⟩⟩

end agrees

/-- C106: `f1` and `f2` are homomorphisms of the groups of points that respect multiplication by scalars, for example the projections onto
the subgroups of prime order, or onto the parts whose orders divide the cofactors. Committing to the images of values on the image of the
CRS gives the image of the commitment, and the same panics. -/
theorem C106_commit_image (h1 : Projects F f1) (h2 : Projects F f2) (hr : SameScalars ρ F G1 G2 H1 H2) (crs : CRS G1 G2 GT) (rng : ρ) :
    (∀ x, Raw.commitG1 (F := F) (f1 x) (crs.on f1 f2) rng = (Raw.commitG1 (F := F) x crs rng).map (Prod.map (Commit.on f1) id)) ∧
    (∀ x, Raw.batchCommitG1 (F := F) (x.map f1) (crs.on f1 f2) rng =
      (Raw.batchCommitG1 (F := F) x crs rng).map (Prod.map (Commit.on f1) id)) ∧
    (∀ x : F, Raw.commitScalarToB1 x (crs.on f1 f2) rng = (Raw.commitScalarToB1 x crs rng).map (Prod.map (Commit.on f1) id)) ∧
    (∀ x : List F, Raw.batchCommitScalarToB1 x (crs.on f1 f2) rng =
      (Raw.batchCommitScalarToB1 x crs rng).map (Prod.map (Commit.on f1) id)) ∧
    (∀ y, Raw.commitG2 (F := F) (f2 y) (crs.on f1 f2) rng = (Raw.commitG2 (F := F) y crs rng).map (Prod.map (Commit.on f2) id)) ∧
    (∀ y, Raw.batchCommitG2 (F := F) (y.map f2) (crs.on f1 f2) rng =
      (Raw.batchCommitG2 (F := F) y crs rng).map (Prod.map (Commit.on f2) id)) ∧
    (∀ y : F, Raw.commitScalarToB2 y (crs.on f1 f2) rng = (Raw.commitScalarToB2 y crs rng).map (Prod.map (Commit.on f2) id)) ∧
    (∀ y : List F, Raw.batchCommitScalarToB2 y (crs.on f1 f2) rng =
      (Raw.batchCommitScalarToB2 y crs rng).map (Prod.map (Commit.on f2) id)) :=
  ⟨fun _ => Raw.commitG1_nat (Raw.carries h1) hr .., fun _ => Raw.batchCommitG1_nat (Raw.carries h1) hr .., fun _ => Raw.commitScalarToB1_nat (Raw.carries h1) hr ..,
    fun _ => Raw.batchCommitScalarToB1_nat (Raw.carries h1) hr .., fun _ => Raw.commitG2_nat (Raw.carries h2) hr .., fun _ => Raw.batchCommitG2_nat (Raw.carries h2) hr ..,
    fun _ => Raw.commitScalarToB2_nat (Raw.carries h2) hr .., fun _ => Raw.batchCommitScalarToB2_nat (Raw.carries h2) hr ..⟩

/-- C106: the same for `prove`. -/
theorem C106_prove_image (h1 : Projects F f1) (h2 : Projects F f2) (hr : SameScalars ρ F G1 G2 H1 H2) (sch : Nat → Scheduler)
    (xc : Commit F G1) (yc : Commit F G2) (crs : CRS G1 G2 GT) (rng : ρ) :
    (∀ (equ : PPE F G1 G2 GT) x y, (equ.on f1 f2).proveRaw sch (x.map f1) (y.map f2) (xc.on f1) (yc.on f2) (crs.on f1 f2) rng =
      (equ.proveRaw sch x y xc yc crs rng).map (Prod.map (EquProof.on f1 f2) id)) ∧
    (∀ (equ : MSMEG1 F G1) x y, (equ.on f1).proveRaw sch (x.map f1) y (xc.on f1) (yc.on f2) (crs.on f1 f2) rng =
      (equ.proveRaw sch x y xc yc crs rng).map (Prod.map (EquProof.on f1 f2) id)) ∧
    (∀ (equ : MSMEG2 F G2) x y, (equ.on f2).proveRaw sch x (y.map f2) (xc.on f1) (yc.on f2) (crs.on f1 f2) rng =
      (equ.proveRaw sch x y xc yc crs rng).map (Prod.map (EquProof.on f1 f2) id)) ∧
    (∀ (equ : QuadEqu F) x y, equ.proveRaw sch x y (xc.on f1) (yc.on f2) (crs.on f1 f2) rng =
      (equ.proveRaw sch x y xc yc crs rng).map (Prod.map (EquProof.on f1 f2) id)) :=
  Raw.prove_nat (Raw.carries h1) (Raw.carries h2) hr ..

/-- C106: the same for `commit_and_prove`. -/
theorem C106_commit_and_prove_image (h1 : Projects F f1) (h2 : Projects F f2) (hr : SameScalars ρ F G1 G2 H1 H2) (sch : Nat → Scheduler)
    (crs : CRS G1 G2 GT) (rng : ρ) :
    (∀ (equ : PPE F G1 G2 GT) x y, (equ.on f1 f2).commitAndProveRaw sch (x.map f1) (y.map f2) (crs.on f1 f2) rng =
      (equ.commitAndProveRaw sch x y crs rng).map (Prod.map (CProof.on f1 f2) id)) ∧
    (∀ (equ : MSMEG1 F G1) x y, (equ.on f1).commitAndProveRaw sch (x.map f1) y (crs.on f1 f2) rng =
      (equ.commitAndProveRaw sch x y crs rng).map (Prod.map (CProof.on f1 f2) id)) ∧
    (∀ (equ : MSMEG2 F G2) x y, (equ.on f2).commitAndProveRaw sch x (y.map f2) (crs.on f1 f2) rng =
      (equ.commitAndProveRaw sch x y crs rng).map (Prod.map (CProof.on f1 f2) id)) ∧
    (∀ (equ : QuadEqu F) x y, equ.commitAndProveRaw sch x y (crs.on f1 f2) rng =
      (equ.commitAndProveRaw sch x y crs rng).map (Prod.map (CProof.on f1 f2) id)) :=
  Raw.commitAndProve_nat (Raw.carries h1) (Raw.carries h2) hr ..

section complete
variable {M1 M2 MT : Type} [AddCommGroup M1] [Module F M1] [AddCommGroup M2] [Module F M2] [AddCommGroup MT] [Module F MT] [DecidableEq MT]
  {e' : G1 → G2 → MT} {e : M1 →ₗ[F] M2 →ₗ[F] MT} {p1 : G1 → M1} {p2 : G2 → M2}

/-- C106, completeness: whatever parts outside the subgroup the values, the constants and the CRS have, `commit_and_prove` returns and
`verify` accepts its message if the projections of the values satisfy the projected equation. -/
theorem C106_complete (he : Ignores e' e p1 p2) (h1 : Projects F p1) (h2 : Projects F p2) (sch : Nat → Scheduler) (sch' : Scheduler)
    (crs : CRS G1 G2 MT) (hu : crs.u.length = 2) (hv : crs.v.length = 2) (rng : ρ) :
    (∀ (equ : PPE F G1 G2 MT) x y, x ≠ [] → y ≠ [] → equ.Dims x.length y.length → (equ.on p1 p2).Holds e (x.map p1) (y.map p2) →
      ∃ cp rng', equ.commitAndProveRaw sch x y crs rng = .ok (cp, rng') ∧ equ.verifyRaw e' sch' cp crs = .ok true) ∧
    (∀ (equ : MSMEG1 F G1) x y, x ≠ [] → y ≠ [] → equ.Dims x.length y.length → (equ.on p1).Holds (x.map p1) y →
      ∃ cp rng', equ.commitAndProveRaw sch x y crs rng = .ok (cp, rng') ∧ equ.verifyRaw e' sch' cp crs = .ok true) ∧
    (∀ (equ : MSMEG2 F G2) x y, x ≠ [] → y ≠ [] → equ.Dims x.length y.length → (equ.on p2).Holds x (y.map p2) →
      ∃ cp rng', equ.commitAndProveRaw sch x y crs rng = .ok (cp, rng') ∧ equ.verifyRaw e' sch' cp crs = .ok true) ∧
    (∀ (equ : QuadEqu F) x y, x ≠ [] → y ≠ [] → equ.Dims x.length y.length → equ.Holds x y →
      ∃ cp rng', equ.commitAndProveRaw sch x y crs rng = .ok (cp, rng') ∧ equ.verifyRaw e' sch' cp crs = .ok true) := by
  letI : Rng ρ F M1 M2 := ⟨Rng.randF G1 G2, fun s => (0, s), fun s => (0, s)⟩
  obtain ⟨i1, i2, i3, i4⟩ := C106_commit_and_prove_image h1 h2 (fun _ => rfl : SameScalars ρ F G1 G2 M1 M2) sch crs rng
  have hu' : (crs.on p1 p2).u.length = 2 := by simpa [CRS.on] using hu
  have hv' : (crs.on p1 p2).v.length = 2 := by simpa [CRS.on] using hv
  have back : ∀ {r : Res (CProof F G1 G2 × ρ)} {cp : CProof F M1 M2} {rng' : ρ},
      r.map (Prod.map (CProof.on p1 p2) id) = .ok (cp, rng') → ∃ cp', r = .ok (cp', rng') ∧ cp'.on p1 p2 = cp := by
    intro r cp rng' h
    cases r with
    | error p => cases h
    | ok q =>
      obtain ⟨q, s⟩ := q
      have h := Except.ok.inj h
      simp only [Prod.map, id, Prod.mk.injEq] at h
      exact ⟨q, by rw [h.2], h.1⟩
  refine ⟨fun equ x y hx hy hd hh => ?_, fun equ x y hx hy hd hh => ?_, fun equ x y hx hy hd hh => ?_, fun equ x y hx hy hd hh => ?_⟩
  · obtain ⟨cp, rng', hp, hc⟩ := C01_ppe_complete e (equ.on p1 p2) (x.map p1) (y.map p2) (crs.on p1 p2) rng sch sch' (by simpa using hx)
      (by simpa using hy) ⟨by simpa [PPE.on] using hd.a, by simpa [PPE.on] using hd.b, by simpa [PPE.on] using hd.rows,
        by simpa [PPE.on] using hd.cols⟩ hu' hv' hh
    obtain ⟨cp', hr, rfl⟩ := back ((i1 equ x y).symm.trans hp)
    exact ⟨cp', rng', hr, (C101_ppe he h1 h2 ..).trans hc⟩
  · obtain ⟨cp, rng', hp, hc⟩ := C02_msmeg1_complete e (equ.on p1) (x.map p1) y (crs.on p1 p2) rng sch sch' (by simpa using hx)
      hy ⟨by simpa [MSMEG1.on] using hd.a, by simpa [MSMEG1.on] using hd.b, by simpa [MSMEG1.on] using hd.rows,
        by simpa [MSMEG1.on] using hd.cols⟩ hu' hv' hh
    obtain ⟨cp', hr, rfl⟩ := back ((i2 equ x y).symm.trans hp)
    exact ⟨cp', rng', hr, (C101_msmeg1 he h1 h2 ..).trans hc⟩
  · obtain ⟨cp, rng', hp, hc⟩ := C03_msmeg2_complete e (equ.on p2) x (y.map p2) (crs.on p1 p2) rng sch sch' hx
      (by simpa using hy) ⟨by simpa [MSMEG2.on] using hd.a, by simpa [MSMEG2.on] using hd.b, by simpa [MSMEG2.on] using hd.rows,
        by simpa [MSMEG2.on] using hd.cols⟩ hu' hv' hh
    obtain ⟨cp', hr, rfl⟩ := back ((i3 equ x y).symm.trans hp)
    exact ⟨cp', rng', hr, (C101_msmeg2 he h1 h2 ..).trans hc⟩
  · obtain ⟨cp, rng', hp, hc⟩ := C04_quad_complete e equ x y (crs.on p1 p2) rng sch sch' hx hy hd hu' hv' hh
    obtain ⟨cp', hr, rfl⟩ := back ((i4 equ x y).symm.trans hp)
    exact ⟨cp', rng', hr, (C101_quad he h1 h2 ..).trans hc⟩

end complete

/-! ### What the parts outside the subgroup reveal

`t` is a homomorphism that respects multiplication by scalars, for example the projection onto the part whose order divides the cofactor;
it maps points of the subgroup to `0`. -/

section leaks
variable {T : Type} [AddCommGroup T] [SMul F T] (hz : ∀ a : F, a • (0 : T) = 0)
include hz

/-- C106, values: if the keys are points of the subgroup, the part of a committed value outside the subgroup stands in its commitment,
whatever the randomness. -/
theorem C106_value_leaks (crs : CRS G1 G2 GT) (rng : ρ) :
    (∀ t : G1 → T, Projects F t → (∀ c ∈ crs.u, t c.c0 = 0 ∧ t c.c1 = 0) →
      (∀ x (r : Commit F G1 × ρ), Raw.commitG1 x crs rng = .ok r → r.1.coms.map (Com.on t) = [⟨0, t x⟩]) ∧
      (∀ x (r : Commit F G1 × ρ), Raw.batchCommitG1 x crs rng = .ok r → r.1.coms.map (Com.on t) = x.map fun x => ⟨0, t x⟩)) ∧
    (∀ t : G2 → T, Projects F t → (∀ c ∈ crs.v, t c.c0 = 0 ∧ t c.c1 = 0) →
      (∀ y (r : Commit F G2 × ρ), Raw.commitG2 y crs rng = .ok r → r.1.coms.map (Com.on t) = [⟨0, t y⟩]) ∧
      (∀ y (r : Commit F G2 × ρ), Raw.batchCommitG2 y crs rng = .ok r → r.1.coms.map (Com.on t) = y.map fun y => ⟨0, t y⟩)) := by
  letI : Rng ρ F Unit Unit := ⟨Rng.randF G1 G2, fun s => ((), s), fun s => ((), s)⟩
  have d1 : Projects F (fun _ : G1 => ()) := ⟨fun _ _ => rfl, fun _ _ => rfl⟩
  have d2 : Projects F (fun _ : G2 => ()) := ⟨fun _ _ => rfl, fun _ _ => rfl⟩
  have img := C106_commit_image d1 d2 (fun _ => rfl : SameScalars ρ F G1 G2 Unit Unit) crs rng
  refine ⟨fun t ht h0 => ⟨fun x r h => ?_, fun x r h => ?_⟩, fun t ht h0 => ⟨fun x r h => ?_, fun x r h => ?_⟩⟩
  · unfold Raw.commitG1 at h
    simp only [bind_ok_iff] at h
    obtain ⟨u0, hu0, u1, hu1, h⟩ := h
    cases h
    have m0 : u0 ∈ crs.u := Raw.mem_of_idx2 hu0
    have m1 : u1 ∈ crs.u := Raw.mem_of_idx2 hu1
    simp only [List.map_cons, List.map_nil, Raw.on_add' (Raw.carries ht), Raw.on_scalarMul_zero ht hz (h0 _ m0).1 (h0 _ m0).2,
      Raw.on_scalarMul_zero ht hz (h0 _ m1).1 (h0 _ m1).2, Com1.linearMap, Raw.on_emb' (Raw.carries ht), add_zero]
  · have hi := img.2.1 x
    rw [h] at hi
    obtain ⟨hx, _, _, hu, -⟩ := batchCommitG1_iff.mp (((C106_commit_agrees ..).2.1 _).symm.trans hi)
    have hx : x ≠ [] := fun h => hx (by simp [h])
    obtain ⟨u0, u1, hu⟩ := List.length_eq_two.mp (by simpa [CRS.on] using congrArg List.length hu : crs.u.length = 2)
    rw [Raw.batchCommitG1_closed hx hu] at h
    cases h
    have m0 : u0 ∈ crs.u := by simp [hu]
    have m1 : u1 ∈ crs.u := by simp [hu]
    rw [List.map_zipWith]
    simp only [Raw.on_add' (Raw.carries ht), Raw.on_scalarMul_zero ht hz (h0 _ m0).1 (h0 _ m0).2,
      Raw.on_scalarMul_zero ht hz (h0 _ m1).1 (h0 _ m1).2, Com1.linearMap, Raw.on_emb' (Raw.carries ht), add_zero]
    exact Raw.zipWith_left _ _ _ (drawPairs_length _ _ _).ge
  · unfold Raw.commitG2 at h
    simp only [bind_ok_iff] at h
    obtain ⟨u0, hu0, u1, hu1, h⟩ := h
    cases h
    have m0 : u0 ∈ crs.v := Raw.mem_of_idx2 hu0
    have m1 : u1 ∈ crs.v := Raw.mem_of_idx2 hu1
    simp only [List.map_cons, List.map_nil, Raw.on_add' (Raw.carries ht), Raw.on_scalarMul_zero ht hz (h0 _ m0).1 (h0 _ m0).2,
      Raw.on_scalarMul_zero ht hz (h0 _ m1).1 (h0 _ m1).2, Com2.linearMap, Raw.on_emb' (Raw.carries ht), add_zero]
  · have hi := img.2.2.2.2.2.1 x
    rw [h] at hi
    obtain ⟨hx, _, _, hu, -⟩ := batchCommitG2_iff.mp (((C106_commit_agrees ..).2.2.2.2.2.1 _).symm.trans hi)
    have hx : x ≠ [] := fun h => hx (by simp [h])
    obtain ⟨u0, u1, hu⟩ := List.length_eq_two.mp (by simpa [CRS.on] using congrArg List.length hu : crs.v.length = 2)
    rw [Raw.batchCommitG2_closed hx hu] at h
    cases h
    have m0 : u0 ∈ crs.v := by simp [hu]
    have m1 : u1 ∈ crs.v := by simp [hu]
    rw [List.map_zipWith]
    simp only [Raw.on_add' (Raw.carries ht), Raw.on_scalarMul_zero ht hz (h0 _ m0).1 (h0 _ m0).2,
      Raw.on_scalarMul_zero ht hz (h0 _ m1).1 (h0 _ m1).2, Com2.linearMap, Raw.on_emb' (Raw.carries ht), add_zero]
    exact Raw.zipWith_left _ _ _ (drawPairs_length _ _ _).ge

/-- C106, constants: if the constants of an equation have parts outside the subgroup, the proof shows those parts multiplied by the
randomness of the commitments, even if the values and the CRS are points of the subgroup. -/
theorem C106_equation_leaks (sch : Nat → Scheduler) (equ : PPE F G1 G2 GT) (x : List G1) (y : List G2) (crs : CRS G1 G2 GT) (rng : ρ)
    (hx : x ≠ []) (hy : y ≠ []) (hd : equ.Dims x.length y.length) (hu : crs.u.length = 2) (hv : crs.v.length = 2) :
    ∃ (r s : List (F × F)) (cp : CProof F G1 G2) (rng' : ρ) (pf : EquProof F G1 G2),
      equ.commitAndProveRaw sch x y crs rng = .ok (cp, rng') ∧ cp.equ_proofs = [pf] ∧
      cp.xcoms.rand = r.map (fun p => [p.1, p.2]) ∧ cp.ycoms.rand = s.map (fun p => [p.1, p.2]) ∧
      (∀ t : G2 → T, Projects F t → (∀ y' ∈ y, t y' = 0) → (∀ c ∈ crs.v, t c.c0 = 0 ∧ t c.c1 = 0) → pf.pi.map (Com.on t) =
        [⟨0, (List.zipWith (fun b p => p.1 • t b) equ.b_consts r).sum⟩, ⟨0, (List.zipWith (fun b p => p.2 • t b) equ.b_consts r).sum⟩]) ∧
      (∀ t : G1 → T, Projects F t → (∀ x' ∈ x, t x' = 0) → (∀ c ∈ crs.u, t c.c0 = 0 ∧ t c.c1 = 0) → pf.theta.map (Com.on t) =
        [⟨0, (List.zipWith (fun a p => p.1 • t a) equ.a_consts s).sum⟩, ⟨0, (List.zipWith (fun a p => p.2 • t a) equ.a_consts s).sum⟩]) := by
  obtain ⟨u0, u1, hu⟩ := List.length_eq_two.mp hu
  obtain ⟨v0, v1, hv⟩ := List.length_eq_two.mp hv
  obtain ⟨R, S, pf, rng', -, -, hrun, hpi, hth⟩ := Raw.ppe_run sch equ rng hx hy hd hu hv
  exact ⟨R, S, _, rng', pf, hrun, rfl, rfl, rfl, fun t ht h0 h0' => hpi ht hz h0 h0', fun t ht h0 h0' => hth ht hz h0 h0'⟩

/-- C106, secrets: suppose only the `i`-th constant of an equation has a part outside the subgroup, and its multiples by different scalars
are different. Then what `commit_and_prove` publishes determines the `i`-th value, on every CRS in the subgroup, also on those on which
honest commitments reveal nothing. -/
theorem C106_secret_leaks (t : G2 → T) (ht : Projects F t) (equ : PPE F G1 G2 GT) (crs : CRS G1 G2 GT) (hu : crs.u.length = 2)
    (hv : crs.v.length = 2) (hv0 : ∀ c ∈ crs.v, t c.c0 = 0 ∧ t c.c1 = 0) (i : Nat) (b : G2) (hb : equ.b_consts[i]? = some b)
    (hinj : ∀ a a' : F, a • t b = a' • t b → a = a') (h0 : ∀ j b', j ≠ i → equ.b_consts[j]? = some b' → t b' = 0)
    (x x' : List G1) (y y' : List G2) (sch sch' : Nat → Scheduler) (rng rng' : ρ)
    (hx : x ≠ []) (hy : y ≠ []) (hd : equ.Dims x.length y.length) (hy0 : ∀ w ∈ y, t w = 0)
    (hx' : x' ≠ []) (hy' : y' ≠ []) (hd' : equ.Dims x'.length y'.length) (hy0' : ∀ w ∈ y', t w = 0)
    (cp cp' : CProof F G1 G2) (s s' : ρ) (hrun : equ.commitAndProveRaw sch x y crs rng = .ok (cp, s))
    (hrun' : equ.commitAndProveRaw sch' x' y' crs rng' = .ok (cp', s')) (hpub : cp.publicPart = cp'.publicPart) : x[i]? = x'[i]? := by
  obtain ⟨u0, u1, hu⟩ := List.length_eq_two.mp hu
  obtain ⟨v0, v1, hv⟩ := List.length_eq_two.mp hv
  obtain ⟨R, S, pf, r, hR, -, hr, hpi, -⟩ := Raw.ppe_run sch equ rng hx hy hd hu hv
  obtain ⟨R', S', pf', r', hR', -, hr', hpi', -⟩ := Raw.ppe_run sch' equ rng' hx' hy' hd' hu hv
  have hpi := hpi ht hz hy0 hv0
  have hpi' := hpi' ht hz hy0' hv0
  rw [hrun] at hr
  rw [hrun'] at hr'
  cases hr
  cases hr'
  simp only [CProof.publicPart, List.map_cons, List.map_nil, Prod.mk.injEq, List.cons.injEq, and_true] at hpub
  obtain ⟨hc, -, hp, -⟩ := hpub
  rw [hp, hpi'] at hpi
  simp only [List.cons.injEq, Com.mk.injEq, true_and, and_true] at hpi
  have hi : i < equ.b_consts.length := (List.getElem?_eq_some_iff.mp hb).1
  have hiR : i < R.length := by rw [hR, ← hd.b]; exact hi
  have hiR' : i < R'.length := by rw [hR', ← hd'.b]; exact hi
  have e1 := fun g => Raw.zip_sum_single (t := t) hz g b R[i] equ.b_consts R i hb (List.getElem?_eq_getElem hiR) h0
  have e2 := fun g => Raw.zip_sum_single (t := t) hz g b R'[i] equ.b_consts R' i hb (List.getElem?_eq_getElem hiR') h0
  have q1 := hinj _ _ (((e2 Prod.fst).symm.trans hpi.1).trans (e1 Prod.fst))
  have q2 := hinj _ _ (((e2 Prod.snd).symm.trans hpi.2).trans (e1 Prod.snd))
  have hix : i < x.length := hR ▸ hiR
  have hix' : i < x'.length := hR' ▸ hiR'
  have hci := congrArg (·[i]?) hc
  simp only [List.getElem?_zipWith, List.getElem?_eq_getElem hiR, List.getElem?_eq_getElem hiR', List.getElem?_eq_getElem hix,
    List.getElem?_eq_getElem hix', q1, q2, Option.some.injEq] at hci
  have := congrArg Com.c1 (add_right_cancel hci)
  rw [List.getElem?_eq_getElem hix, List.getElem?_eq_getElem hix']
  exact congrArg some this

/-- C106, keys: a CRS with parts outside the subgroup can make every commitment binding, and open to whoever knows its two dangerous parts,
although its projection into the subgroup is any CRS at all, for example a hiding one. -/
theorem C106_crs_leaks (t : G1 → T) (ht : Projects F t) (crs : CRS G1 G2 GT) (u0 u1 : Com G1) (us : List (Com G1))
    (hu : crs.u = u0 :: u1 :: us)
    (h00 : ∀ a a' : F, a • t u0.c0 = a' • t u0.c0 → a = a') (h01 : t u0.c1 = 0) (h10 : t u1.c0 = 0)
    (h11 : ∀ a a' : F, a • t u1.c1 = a' • t u1.c1 → a = a') (x x' : G1) (hx : t x = 0) (hx' : t x' = 0) (rng rng' : ρ)
    (r r' : Commit F G1 × ρ) (hr : Raw.commitG1 x crs rng = .ok r) (hr' : Raw.commitG1 x' crs rng' = .ok r')
    (hc : r.1.coms = r'.1.coms) : x = x' ∧ r.1.rand = r'.1.rand := by
  simp only [Raw.commitG1, hu, vecToColVec, List.map_cons, idx2, idx, bind_ok_iff] at hr hr'
  simp at hr hr'
  subst hr hr'
  simp only [List.cons.injEq, and_true] at hc
  generalize (Rng.randF G1 G2 rng : F × ρ).1 = a at hc ⊢
  generalize (Rng.randF G1 G2 (Rng.randF G1 G2 rng : F × ρ).2 : F × ρ).1 = b at hc ⊢
  generalize (Rng.randF G1 G2 rng' : F × ρ).1 = a' at hc ⊢
  generalize (Rng.randF G1 G2 (Rng.randF G1 G2 rng' : F × ρ).2 : F × ρ).1 = b' at hc ⊢
  have hon := congrArg (Com.on t) hc
  simp only [Raw.on_add' (Raw.carries ht), Raw.on_scalarMul' (Raw.carries ht), Com1.linearMap, Raw.on_emb' (Raw.carries ht), hx, hx'] at hon
  have hc0 : (0 : T) + a • t u0.c0 + b • t u1.c0 = 0 + a' • t u0.c0 + b' • t u1.c0 := congrArg Com.c0 hon
  have hc1 : (0 : T) + a • t u0.c1 + b • t u1.c1 = 0 + a' • t u0.c1 + b' • t u1.c1 := congrArg Com.c1 hon
  simp only [h10, h01, hz, zero_add, add_zero] at hc0 hc1
  have ea := h00 _ _ hc0
  have eb := h11 _ _ hc1
  subst ea eb
  exact ⟨congrArg Com.c1 (add_right_cancel (add_right_cancel hc)), rfl⟩

end leaks

/-! ### Where the homomorphisms come from -/

/-- C106. In a group every element of which is killed by `r * h`, like the points of a curve of order `r` times the cofactor `h`, with scalars
modulo `r` multiplied as integers, the homomorphisms of C101 and C106 exist: `f` onto the subgroup of prime order, a vector space over the
scalars, and `t` onto the rest. Multiples of `t b` by different scalars are different if its order is at least `r`. -/
theorem C106_projections {r h : Nat} [Fact r.Prime] (hc : r.Coprime h) {G : Type} [AddCommGroup G] [SMul (ZMod r) G]
    (hs : ∀ (a : ZMod r) (x : G), a • x = a.val • x) (hG : ∀ x : G, (r * h) • x = 0) :
    ∃ (H T : AddSubgroup G) (_ : Module (ZMod r) H) (_ : SMul (ZMod r) T) (f : G → H) (t : G → T),
      Projects (ZMod r) f ∧ Projects (ZMod r) t ∧ (∀ x, x = (f x : G) + (t x : G)) ∧
      (∀ x, x ∈ H ↔ r • x = 0) ∧ (∀ x, x ∈ T ↔ h • x = 0) ∧ (∀ x, f x = 0 ↔ h • x = 0) ∧ (∀ x, t x = 0 ↔ r • x = 0) ∧
      (∀ (a : ZMod r) (x : H), ((a • x : H) : G) = a • (x : G)) ∧ (∀ (a : ZMod r) (x : T), ((a • x : T) : G) = a • (x : G)) ∧
      (∀ a : ZMod r, a • (0 : T) = 0) ∧
      ∀ b, r ≤ addOrderOf (t b) → ∀ a a' : ZMod r, a • t b = a' • t b → a = a' := by
  obtain ⟨c, c1, c0⟩ := Nat.chineseRemainder hc 1 0
  have hdvd : h ∣ c := (Nat.modEq_zero_iff_dvd).mp c0
  let H : AddSubgroup G := (nsmulAddMonoidHom r).ker
  let T : AddSubgroup G := (nsmulAddMonoidHom h).ker
  have hH : ∀ x : G, x ∈ H ↔ r • x = 0 := fun _ => Iff.rfl
  have hT : ∀ x : G, x ∈ T ↔ h • x = 0 := fun _ => Iff.rfl
  let mH : Module (ZMod r) H := AddCommGroup.zmodModule fun x => Subtype.ext x.2
  let sT : SMul (ZMod r) T := ⟨fun a x => a.val • x⟩
  have smH : ∀ (a : ZMod r) (x : H), a • x = a.val • x := fun a x => by
    conv_lhs => rw [← ZMod.natCast_zmod_val a]
    exact Nat.cast_smul_eq_nsmul _ _ _
  have cH : ∀ x : G, r • c • x = 0 := fun x => by
    rw [← mul_nsmul']
    obtain ⟨k, rfl⟩ := hdvd
    rw [← mul_assoc, mul_nsmul, hG, nsmul_zero]
  have hcx : ∀ x : G, h • c • x = h • x := fun x => by
    rw [← mul_nsmul']
    refine Raw.nsmul_mod (hG x) ?_
    have := c1.mul_left' h
    rwa [mul_one, mul_comm h r] at this
  have inj : ∀ z : T, r ≤ addOrderOf z → ∀ a a' : ZMod r, a • z = a' • z → a = a' := by
    intro z hb a a' h0
    have h0 : a.val • z = a'.val • z := h0
    rw [nsmul_eq_nsmul_iff_modEq] at h0
    exact ZMod.val_injective r (h0.eq_of_lt_of_lt ((ZMod.val_lt a).trans_le hb) ((ZMod.val_lt a').trans_le hb))
  refine ⟨H, T, mH, sT, fun x => ⟨c • x, cH x⟩, fun x => ⟨x - c • x, ?_⟩, ⟨?_, ?_⟩, ⟨?_, ?_⟩, ?_, hH, hT, ?_, ?_, ?_, ?_, ?_, ?_⟩
  · show h • (x - c • x) = 0
    rw [nsmul_sub, hcx, sub_self]
  · exact fun x y => Subtype.ext (nsmul_add _ _ _)
  · intro a x
    rw [smH]
    refine Subtype.ext ?_
    show c • a • x = a.val • c • x
    rw [hs, nsmul_left_comm]
  · refine fun x y => Subtype.ext ?_
    show x + y - c • (x + y) = (x - c • x) + (y - c • y)
    rw [nsmul_add]; abel
  · intro a x
    refine Subtype.ext ?_
    show a • x - c • a • x = a.val • (x - c • x)
    rw [hs, nsmul_sub, nsmul_left_comm]
  · intro x
    show x = c • x + (x - c • x)
    abel
  · intro x
    rw [Subtype.ext_iff]
    show c • x = 0 ↔ _
    constructor
    · intro h0
      rw [← hcx, h0, nsmul_zero]
    · intro h0
      obtain ⟨k, rfl⟩ := hdvd
      rw [mul_nsmul, h0, nsmul_zero]
  · intro x
    rw [Subtype.ext_iff]
    show x - c • x = 0 ↔ _
    rw [sub_eq_zero]
    constructor
    · intro h0
      rw [h0]
      exact cH x
    · intro h0
      have := Raw.nsmul_mod h0 c1
      rw [this, one_nsmul]
  · intro a x
    rw [smH, hs]
    rfl
  · intro a x
    rw [hs]
    rfl
  · exact fun a => nsmul_zero _
  · exact fun b => inj _

/-! ### Instances -/

namespace Ex

/-- The integers modulo 77, with scalars modulo 7. -/
def smul77 : SMul K (ZMod 77) := ⟨fun a x => a.val • x⟩

example := @C106_projections 7 11 _ (by decide) (ZMod 77) _ smul77 (fun _ _ => rfl)
  (fun x => by rw [nsmul_eq_mul, show ((7 * 11 : Nat) : ZMod 77) = 0 from rfl, zero_mul])

/-- The points of an elliptic curve. -/
example {r h : Nat} [Fact r.Prime] (hc : r.Coprime h) {k : Type} [Field k] [DecidableEq k] (W : WeierstrassCurve.Affine k)
    (hW : ∀ p : W.Point, (r * h) • p = 0) :=
  @C106_projections r h _ hc W.Point _ ⟨fun a p => a.val • p⟩ (fun _ _ => rfl) hW

/-- Integers modulo 11, multiplied by scalars modulo 7 through their representatives between 0 and 6. -/
structure T11 where
  b : ZMod 11
  deriving DecidableEq

def T11.toZ : T11 ≃ ZMod 11 := ⟨T11.b, T11.mk, fun _ => rfl, fun _ => rfl⟩
instance : AddCommGroup T11 := T11.toZ.addCommGroup
instance : SMul K T11 := ⟨fun s x => ⟨(s.val : ZMod 11) * x.b⟩⟩

/-- The cyclic group of order 77, with cofactor 11. -/
structure P77 where
  a : ZMod 7
  b : ZMod 11
  deriving DecidableEq

def P77.toProd : P77 ≃ ZMod 7 × ZMod 11 := ⟨fun p => (p.a, p.b), fun p => ⟨p.1, p.2⟩, fun _ => rfl, fun _ => rfl⟩
instance : AddCommGroup P77 := P77.toProd.addCommGroup

/-- Multiplication by a scalar is multiplication by its representative between 0 and 6. -/
instance : SMul K P77 := ⟨fun s p => s.val • p⟩

theorem P77.add_a (p q : P77) : (p + q).a = p.a + q.a := rfl
theorem P77.add_b (p q : P77) : (p + q).b = p.b + q.b := rfl
theorem P77.nsmul_a (n : Nat) (p : P77) : (n • p).a = n • p.a := by
  induction n with
  | zero => simp; rfl
  | succ n ih => rw [succ_nsmul, succ_nsmul, P77.add_a, ih]
theorem P77.nsmul_b (n : Nat) (p : P77) : (n • p).b = n • p.b := by
  induction n with
  | zero => simp; rfl
  | succ n ih => rw [succ_nsmul, succ_nsmul, P77.add_b, ih]

theorem p77_projects : Projects K P77.a where
  add _ _ := rfl
  smul s p := by
    show (s.val • p).a = s • p.a
    rw [P77.nsmul_a, nsmul_eq_mul, ZMod.natCast_zmod_val, smul_eq_mul]

/-- The part whose order divides the cofactor. -/
def t77 (p : P77) : T11 := ⟨p.b⟩

theorem t77_projects : Projects K t77 where
  add _ _ := rfl
  smul s p := by
    show (⟨(s.val • p).b⟩ : T11) = ⟨(s.val : ZMod 11) * p.b⟩
    rw [P77.nsmul_b, nsmul_eq_mul]

theorem t11_zero : ∀ a : K, a • (0 : T11) = 0 := by decide
theorem t11_inj : ∀ a a' : K, a • (⟨1⟩ : T11) = a' • (⟨1⟩ : T11) → a = a' := by decide

/-- Counters as random number generators. -/
instance : Rng Nat K P77 K := ⟨fun s => (s, s + 1), fun s => (⟨s, s⟩, s + 1), fun s => (s, s + 1)⟩
instance : Rng Nat K K P77 := ⟨fun s => (s, s + 1), fun s => (s, s + 1), fun s => (⟨s, s⟩, s + 1)⟩

theorem same77 : SameScalars Nat K P77 K K K := fun _ => rfl

/-- A pairing that looks only at the part of prime order on the left, or on the right. -/
def e77 (p : P77) (y : K) : K := e7 p.a y
def e77' (x : K) (p : P77) : K := e7 x p.a

theorem e77_ignores : Ignores e77 e7 P77.a id := fun _ _ => rfl
theorem e77_ignores' : Ignores e77' e7 id P77.a := fun _ _ => rfl

def j77 (x : K) : P77 := ⟨x, 0⟩

example (crs : CRS P77 K K) (rng : Nat) := C106_commit_image (F := K) p77_projects k_projects same77 crs rng
example (sch : Nat → Scheduler) (xc : Commit K P77) (yc : Commit K K) (crs : CRS P77 K K) (rng : Nat) :=
  C106_prove_image p77_projects k_projects same77 sch xc yc crs rng
example (sch : Nat → Scheduler) (crs : CRS P77 K K) (rng : Nat) :=
  C106_commit_and_prove_image (F := K) p77_projects k_projects same77 sch crs rng
example (crs : CRS K K K) (rng : Nat) := C106_commit_agrees (F := K) crs rng
example (sch : Nat → Scheduler) (xc : Commit K K) (yc : Commit K K) (crs : CRS K K K) (rng : Nat) :=
  C106_prove_agrees sch xc yc crs rng

/-- Values, constants, target and CRS with parts of order 11. The message is accepted. -/
example (sch : Nat → Scheduler) (sch' : Scheduler) (rng : Nat) :
    ∃ cp rng', (⟨[⟨1, 5⟩, ⟨2, 0⟩], [5], [[1, 2]], ⟨1, 3⟩⟩ : MSMEG1 K P77).commitAndProveRaw sch [⟨2, 9⟩] [3, 4]
        (crs7.on (fun x => ⟨x, 4⟩) id) rng = .ok (cp, rng') ∧
      (⟨[⟨1, 5⟩, ⟨2, 0⟩], [5], [[1, 2]], ⟨1, 3⟩⟩ : MSMEG1 K P77).verifyRaw e77 sch' cp (crs7.on (fun x => ⟨x, 4⟩) id) = .ok true :=
  (C106_complete e77_ignores p77_projects k_projects sch sch' (crs7.on (fun x => ⟨x, 4⟩) id) rfl rfl rng).2.1 _ _ _ (by simp) (by simp)
    (by constructor <;> simp) msm1_7_holds

/-- The keys are in the subgroup, the value is not. -/
example (rng : Nat) : ∃ r, Raw.commitG1 (F := K) (⟨2, 9⟩ : P77) (sim7.on j77 id) rng = .ok r ∧ r.1.coms.map (Com.on t77) = [⟨0, ⟨9⟩⟩] := by
  refine ⟨_, rfl, ((C106_value_leaks t11_zero (sim7.on j77 id) rng).1 t77 t77_projects ?_).1 _ _ rfl⟩
  intro c hc
  simp only [CRS.on, List.mem_map] at hc
  obtain ⟨c, -, rfl⟩ := hc
  exact ⟨rfl, rfl⟩

/-- An equation whose only constant on the right has a part of order 11. -/
def ppe77 : PPE K K P77 K := ⟨[1, 2], [⟨5, 1⟩], [[1, 2]], 1⟩

theorem sim77_v : ∀ c ∈ (sim7.on (G1 := K) id j77).v, t77 c.c0 = 0 ∧ t77 c.c1 = 0 := by
  intro c hc
  simp only [CRS.on, List.mem_map] at hc
  obtain ⟨c, -, rfl⟩ := hc
  exact ⟨rfl, rfl⟩

example (sch : Nat → Scheduler) (rng : Nat) := C106_equation_leaks t11_zero sch ppe77 [2] [j77 3, j77 4] (sim7.on id j77) rng (by simp)
  (by simp) (by constructor <;> simp [ppe77]) rfl rfl

/-- The message tells whether the value was `2` or `0`, although the CRS is a simulated one and both values are part of a solution. -/
example (sch sch' : Nat → Scheduler) (rng rng' : Nat) :
    ∃ cp cp' s s', ppe77.commitAndProveRaw sch [2] [j77 3, j77 4] (sim7.on id j77) rng = .ok (cp, s) ∧
      ppe77.commitAndProveRaw sch' [0] [j77 1, j77 0] (sim7.on id j77) rng' = .ok (cp', s') ∧
      (∀ vs, ppe77.verifyRaw e77' vs cp (sim7.on id j77) = .ok true) ∧ (∀ vs, ppe77.verifyRaw e77' vs cp' (sim7.on id j77) = .ok true) ∧
      cp.publicPart ≠ cp'.publicPart := by
  have hd : ∀ (x : K) (y y' : P77), ppe77.Dims [x].length [y, y'].length := fun _ _ _ => by constructor <;> simp [ppe77]
  have ok := fun vs => (C106_complete e77_ignores' k_projects p77_projects sch vs (sim7.on id j77) rfl rfl rng).1 ppe77 [2] [j77 3, j77 4]
    (by simp) (by simp) (hd ..) ppe7_holds
  have ok' := fun vs => (C106_complete e77_ignores' k_projects p77_projects sch' vs (sim7.on id j77) rfl rfl rng').1 ppe77 [0] [j77 1, j77 0]
    (by simp) (by simp) (hd ..) ppe7_holds'
  obtain ⟨cp, s, h, -⟩ := ok seqSched
  obtain ⟨cp', s', h', -⟩ := ok' seqSched
  have hv : ∀ vs, ppe77.verifyRaw e77' vs cp (sim7.on id j77) = .ok true := fun vs => by
    obtain ⟨c, r, hc, hv⟩ := ok vs
    rw [h] at hc
    cases hc
    exact hv
  have hv' : ∀ vs, ppe77.verifyRaw e77' vs cp' (sim7.on id j77) = .ok true := fun vs => by
    obtain ⟨c, r, hc, hv⟩ := ok' vs
    rw [h'] at hc
    cases hc
    exact hv
  refine ⟨cp, cp', s, s', h, h', hv, hv', fun hp => ?_⟩
  have := C106_secret_leaks t11_zero t77 t77_projects ppe77 (sim7.on id j77) rfl rfl sim77_v 0 ⟨5, 1⟩ rfl t11_inj
    (fun j b hj hb => by
      cases j with
      | zero => exact absurd rfl hj
      | succ j => simp [ppe77] at hb)
    [2] [0] [j77 3, j77 4] [j77 1, j77 0] sch sch' rng rng' (by simp) (by simp) (hd ..) (by simp [j77, t77]; rfl) (by simp) (by simp) (hd ..)
    (by simp [j77, t77]; rfl) cp cp' s s' h h' hp
  simp only [List.getElem?_cons_zero, Option.some.injEq] at this
  exact absurd this (by decide)

/-- A CRS whose projection is the simulated `sim7`. -/
def dirty77 : CRS P77 K K :=
  { sim7.on j77 id with u := [⟨⟨1, 1⟩, ⟨3, 0⟩⟩, ⟨⟨5, 0⟩, ⟨0, 1⟩⟩] }

theorem dirty77_on : dirty77.on P77.a id = sim7 := by
  simp only [dirty77, CRS.on, List.map_map]
  have h1 : (Com.on (id : K → K)) ∘ Com.on id = id := rfl
  rw [h1, List.map_id]
  have h2 : sim7.u = [⟨1, 3⟩, ⟨5, 0⟩] := by decide
  rw [show sim7 = ⟨sim7.u, sim7.v, sim7.g1_gen, sim7.g2_gen, sim7.gt_gen⟩ from rfl, h2]
  rfl

/-- Commitments on it never coincide for different values of the subgroup, which they do on `sim7`. -/
example (x x' : K) (rng rng' : Nat) (h : x ≠ x') :
    ∃ r r', Raw.commitG1 (F := K) (j77 x) dirty77 rng = .ok r ∧ Raw.commitG1 (F := K) (j77 x') dirty77 rng' = .ok r' ∧
      r.1.coms ≠ r'.1.coms := by
  refine ⟨_, _, rfl, rfl, fun hc => h ?_⟩
  exact congrArg P77.a (C106_crs_leaks t11_zero t77 t77_projects dirty77 _ _ [] rfl t11_inj rfl rfl t11_inj _ _ rfl rfl rng rng' _ _ rfl rfl
    hc).1

end Ex

end GS
