import Verif.Props.Commitments
import Verif.Props.Soundness

/-!
# C78: a commitment to a scalar is a commitment to that multiple of the generator

`commit_scalar_to_B1(x)` computes `x (u1 + (O, g1)) + r u0`, which is `(O, x g1) + r u0 + x u1`: the commitment
`commit_G1(x g1)` with randomness `(r, x)` (/repo/src/prover/commit.rs).  So one list of commitments can serve
equations of different types, and soundness relates the types to each other.
-/

set_option linter.unusedSectionVars false

namespace GS

/-- The commitment to scalars `c`, with the randomness it has as a commitment to multiples of the generator: the
committed scalar is appended to each row. -/
def Commit.asGroup {F G : Type} (c : Commit F G) (x : List F) : Commit F G :=
  ⟨c.coms, List.zipWith (fun r x => r ++ [x]) c.rand x⟩

/-- `[r0, x0, r1, x1, ..]`. -/
def interleave {F : Type} : List F → List F → List F
  | r :: rs, x :: xs => r :: x :: interleave rs xs
  | _, _ => []

section
variable {F G : Type} [Field F] [AddCommGroup G] [Module F G]

theorem scalarCom_eq_groupCom (u0 u1 : Com G) (g : G) (x r : F) :
    scalarCom u0 u1 g x r = groupCom u0 u1 (x • g) (r, x) := by
  ext <;> simp [scalarCom, groupCom, add_comm, add_left_comm]

theorem OpensScalar.asGroup {u : List (Com G)} {g : G} {c : Commit F G} {x : List F} (h : c.OpensScalar u g x) :
    (c.asGroup x).OpensGroup u (x.map (· • g)) := by
  obtain ⟨u0, u1, u', hu, R, hR, hr, hc⟩ := h
  refine ⟨u0, u1, u', hu, List.zipWith (fun r x => (r, x)) R x, by simp [hR], ?_, ?_⟩
  · simp only [Commit.asGroup, hr, List.zipWith_map_left, List.map_zipWith]
    rfl
  · simp only [Commit.asGroup, hc]
    clear hc hr
    induction x generalizing R with
    | nil => simp
    | cons a x ih => cases R with
      | nil => simp
      | cons b R => simp [scalarCom_eq_groupCom, ih R (by simpa using hR)]

theorem interleave_flatten (rs xs : List F) :
    interleave rs xs = ((List.zipWith (fun r x => (r, x)) rs xs).map fun p => [p.1, p.2]).flatten := by
  induction rs generalizing xs with
  | nil => simp [interleave]
  | cons r rs ih => cases xs <;> simp [interleave, ih]

end

variable {F G1 G2 GT : Type} [Field F] [AddCommGroup G1] [Module F G1] [AddCommGroup G2] [Module F G2]
  [AddCommGroup GT] [Module F GT] {ρ : Type} [Rng ρ F G1 G2] {ρ' : Type} [Rng ρ' F G1 G2] {key : CRS G1 G2 GT}

theorem zipWith_scalarCom {G : Type} [AddCommGroup G] [Module F G] (u0 u1 : Com G) (g : G) (x R : List F) :
    List.zipWith (fun x (r : F) => x • (u1 + (⟨0, g⟩ : Com G)) + r • u0) x R =
    List.zipWith (fun y (ab : F × F) => (⟨0, y⟩ : Com G) + ab.1 • u0 + ab.2 • u1) (x.map (· • g))
      (List.zipWith (fun r x => (r, x)) R x) := by
  induction x generalizing R with
  | nil => simp
  | cons a x ih => cases R with
    | nil => simp
    | cons b R =>
      simp only [List.zipWith_cons_cons, List.map_cons, ih R]
      congr 1
      exact scalarCom_eq_groupCom u0 u1 g a b

/-- C78: `batch_commit_scalar_to_B1(x)` and `batch_commit_G1(x g1)` return the same commitments when the second
draws `r0, x0, r1, x1, ..`, where `r0, r1, ..` are the draws of the first. -/
theorem C78_commit_B1 (hu : key.u.length = 2) (x : List F) (hx : x ≠ []) (rng : ρ) (rng' : ρ')
    (hd : (draws (F := F) G1 G2 (2 * x.length) rng').1 = interleave (draws (F := F) G1 G2 x.length rng).1 x) :
    ∃ c s c' s', batchCommitScalarToB1 x key rng = .ok (c, s) ∧
      batchCommitG1 (F := F) (x.map (· • key.g1_gen)) key rng' = .ok (c', s') ∧
      c'.coms = c.coms ∧ c' = c.asGroup x := by
  obtain ⟨u0, u1, hu⟩ := List.length_eq_two.mp hu
  have hp : (drawPairs (Rng.randF (F := F) G1 G2) (x.map (· • key.g1_gen)).length rng').1 =
      List.zipWith (fun r x => (r, x)) (drawF (Rng.randF (F := F) G1 G2) x.length rng).1 x := by
    rw [interleave_flatten, draws_pairs, draws_eq] at hd
    rw [List.length_map]
    exact pairs_inj hd
  have h1 := batchCommitScalarToB1_iff (rng := rng) |>.mpr ⟨hx, u0, u1, [], hu, rfl⟩
  have h2 := batchCommitG1_iff (F := F) (xs := x.map (· • key.g1_gen)) (rng := rng') |>.mpr ⟨mt List.map_eq_nil_iff.mp hx, u0, u1, hu, rfl⟩
  have hc := zipWith_scalarCom u0 u1 key.g1_gen x (drawF (Rng.randF (F := F) G1 G2) x.length rng).1
  refine ⟨_, _, _, _, h1, h2, ?_, ?_⟩
  · rw [hp]; exact hc.symm
  · rw [hp]
    simp only [Commit.asGroup, Commit.mk.injEq]
    refine ⟨hc.symm, ?_⟩
    simp only [List.zipWith_map_left, List.map_zipWith]; rfl

/-- C78: the same on the `G2` side. -/
theorem C78_commit_B2 (hv : key.v.length = 2) (x : List F) (hx : x ≠ []) (rng : ρ) (rng' : ρ')
    (hd : (draws (F := F) G1 G2 (2 * x.length) rng').1 = interleave (draws (F := F) G1 G2 x.length rng).1 x) :
    ∃ c s c' s', batchCommitScalarToB2 x key rng = .ok (c, s) ∧
      batchCommitG2 (F := F) (x.map (· • key.g2_gen)) key rng' = .ok (c', s') ∧
      c'.coms = c.coms ∧ c' = c.asGroup x := by
  obtain ⟨v0, v1, hv⟩ := List.length_eq_two.mp hv
  have hp : (drawPairs (Rng.randF (F := F) G1 G2) (x.map (· • key.g2_gen)).length rng').1 =
      List.zipWith (fun r x => (r, x)) (drawF (Rng.randF (F := F) G1 G2) x.length rng).1 x := by
    rw [interleave_flatten, draws_pairs, draws_eq] at hd
    rw [List.length_map]
    exact pairs_inj hd
  have h1 := batchCommitScalarToB2_iff (rng := rng) |>.mpr ⟨hx, v0, v1, [], hv, rfl⟩
  have h2 := batchCommitG2_iff (F := F) (ys := x.map (· • key.g2_gen)) (rng := rng') |>.mpr ⟨mt List.map_eq_nil_iff.mp hx, v0, v1, hv, rfl⟩
  have hc := zipWith_scalarCom v0 v1 key.g2_gen x (drawF (Rng.randF (F := F) G1 G2) x.length rng).1
  refine ⟨_, _, _, _, h1, h2, ?_, ?_⟩
  · rw [hp]; exact hc.symm
  · rw [hp]
    simp only [Commit.asGroup, Commit.mk.injEq]
    refine ⟨hc.symm, ?_⟩
    simp only [List.zipWith_map_left, List.map_zipWith]; rfl

/-- A tape realising the hypothesis for every `x` and every first run. -/
example (x : List F) (rng : ρ) : (draws (F := F) G1 G2 (2 * x.length)
    (interleave (draws (F := F) G1 G2 x.length rng).1 x)).1 = interleave (draws (F := F) G1 G2 x.length rng).1 x := by
  have h : (draws (F := F) G1 G2 x.length rng).1.length = x.length := draws_length ..
  have : (interleave (draws (F := F) G1 G2 x.length rng).1 x).length = 2 * x.length := by
    generalize (draws (F := F) G1 G2 x.length rng).1 = l at *
    clear rng
    induction l generalizing x with
    | nil => simp [interleave, ← h]
    | cons a l ih => cases x with
      | nil => simp at h
      | cons b x => simp [interleave, ih x (by simpa using h)]; omega
  have h' := draws_tape' (G1 := G1) (G2 := G2) this []
  rw [List.append_nil] at h'
  rw [h']

variable [DecidableEq GT] (e : G1 →ₗ[F] G2 →ₗ[F] GT) (sch : Nat → Scheduler) (sch' : Scheduler)

/-- C78: equations of all four types can be proved about one pair of lists of commitments to scalars, reading a
committed scalar as that multiple of the generator where the type asks for a group element.  The prover uses the
converted randomness; the verifier is given the commitments as they were made. -/
theorem C78_prove (hu : key.u.length = 2) (hv : key.v.length = 2) (x y : List F) (xc : Commit F G1)
    (yc : Commit F G2) (hx : x ≠ []) (hy : y ≠ []) (hxc : xc.OpensScalar key.u key.g1_gen x)
    (hyc : yc.OpensScalar key.v key.g2_gen y) (rng : ρ) :
    (∀ equ : PPE F G1 G2 GT, equ.Dims x.length y.length →
      equ.Holds e (x.map (· • key.g1_gen)) (y.map (· • key.g2_gen)) → ∃ pf r,
        equ.prove sch (x.map (· • key.g1_gen)) (y.map (· • key.g2_gen)) (xc.asGroup x) (yc.asGroup y) key rng =
          .ok (pf, r) ∧ equ.verify e sch' ⟨xc, yc, [pf]⟩ key = .ok true) ∧
    (∀ equ : MSMEG1 F G1, equ.Dims x.length y.length → equ.Holds (x.map (· • key.g1_gen)) y → ∃ pf r,
        equ.prove sch (x.map (· • key.g1_gen)) y (xc.asGroup x) yc key rng = .ok (pf, r) ∧
        equ.verify e sch' ⟨xc, yc, [pf]⟩ key = .ok true) ∧
    (∀ equ : MSMEG2 F G2, equ.Dims x.length y.length → equ.Holds x (y.map (· • key.g2_gen)) → ∃ pf r,
        equ.prove sch x (y.map (· • key.g2_gen)) xc (yc.asGroup y) key rng = .ok (pf, r) ∧
        equ.verify e sch' ⟨xc, yc, [pf]⟩ key = .ok true) ∧
    (∀ equ : QuadEqu F, equ.Dims x.length y.length → equ.Holds x y → ∃ pf r,
        equ.prove sch x y xc yc key rng = .ok (pf, r) ∧
        equ.verify e sch' ⟨xc, yc, [pf]⟩ key = .ok true) := by
  have hx' : x.map (· • key.g1_gen) ≠ [] := mt List.map_eq_nil_iff.mp hx
  have hy' : y.map (· • key.g2_gen) ≠ [] := mt List.map_eq_nil_iff.mp hy
  obtain ⟨u0, u1, hu'⟩ := List.length_eq_two.mp hu
  obtain ⟨v0, v1, hv'⟩ := List.length_eq_two.mp hv
  refine ⟨fun equ hd hs => ?_, fun equ hd hs => ?_, fun equ hd hs => ?_, fun equ hd hs => ?_⟩
  · obtain ⟨pf, r, h, -, -, -, h4⟩ := PPE.honest e sch equ _ _ (xc.asGroup x) (yc.asGroup y) key rng hx' hy'
      (by simpa using hd) hu hv (OpensScalar.asGroup hxc) (OpensScalar.asGroup hyc)
    obtain ⟨b, hb, hb'⟩ := h4 sch' ⟨xc, yc, [pf]⟩ rfl rfl rfl
    rw [hb'.mpr hs] at hb
    exact ⟨pf, r, h, hb⟩
  · obtain ⟨pf, r, h, -, -, -, h4⟩ := MSMEG1.honest e sch equ _ _ (xc.asGroup x) yc key rng hx' hy
      (by simpa using hd) hu hv' (OpensScalar.asGroup hxc) hyc
    obtain ⟨b, hb, hb'⟩ := h4 sch' ⟨xc, yc, [pf]⟩ rfl rfl rfl
    rw [hb'.mpr (congrArg _ hs)] at hb
    exact ⟨pf, r, h, hb⟩
  · obtain ⟨pf, r, h, -, -, -, h4⟩ := MSMEG2.honest e sch equ _ _ xc (yc.asGroup y) key rng hx hy'
      (by simpa using hd) hu' hv hxc (OpensScalar.asGroup hyc)
    obtain ⟨b, hb, hb'⟩ := h4 sch' ⟨xc, yc, [pf]⟩ rfl rfl rfl
    rw [hb'.mpr (congrArg _ hs)] at hb
    exact ⟨pf, r, h, hb⟩
  · obtain ⟨pf, r, h, -, -, -, h4⟩ := QuadEqu.honest e sch equ _ _ xc yc key rng hx hy hd hu' hv' hxc hyc
    obtain ⟨b, hb, hb'⟩ := h4 sch' ⟨xc, yc, [pf]⟩ rfl rfl rfl
    rw [hb'.mpr (congrArg _ hs)] at hb
    exact ⟨pf, r, h, hb⟩

/-- C78: with a generated CRS a commitment opens to the scalar `x` exactly when it opens to `x` times the
generator, on both sides. -/
theorem C78_open_iff (he : PrimeGroups e) (crs : CRS G1 G2 GT) (hc : GeneratedCrs e crs) (h0 : crs.NonzeroGens) :
    (∀ c (x : F), CanOpenScalar crs.u crs.g1_gen c x ↔ CanOpenGroup F crs.u c (x • crs.g1_gen)) ∧
    (∀ c (y : F), CanOpenScalar crs.v crs.g2_gen c y ↔ CanOpenGroup F crs.v c (y • crs.g2_gen)) := by
  obtain ⟨a1, t1, a2, t2, hb⟩ := hc.binding
  refine ⟨fun c x => ?_, fun c y => ?_⟩
  · rw [canOpenScalar_iff (he.cyclic1 _ h0.1) hb.u, canOpenGroup_iff (he.cyclic1 _ h0.1) hb.u]
  · rw [canOpenScalar_iff (he.cyclic2 _ h0.2) hb.v, canOpenGroup_iff (he.cyclic2 _ h0.2) hb.v]

/-- C78: soundness across types.  One assignment of scalars to commitments, determined by the CRS alone, satisfies
every equation of every type for which an accepted proof exists, where a group element is read as the assigned
multiple of the generator. -/
theorem C78_joint_soundness (he : PrimeGroups e) (crs : CRS G1 G2 GT) (hc : GeneratedCrs e crs)
    (h0 : crs.NonzeroGens) :
    ∃ (x : Com G1 → F) (y : Com G2 → F),
      (∀ c v, CanOpenScalar crs.u crs.g1_gen c v ↔ v = x c) ∧ (∀ c v, CanOpenScalar crs.v crs.g2_gen c v ↔ v = y c) ∧
      (∀ (equ : PPE F G1 G2 GT) (cp : CProof F G1 G2) (sch : Scheduler), equ.verify e sch cp crs = .ok true →
        equ.Holds e (cp.xcoms.coms.map (x · • crs.g1_gen)) (cp.ycoms.coms.map (y · • crs.g2_gen))) ∧
      (∀ (equ : MSMEG1 F G1) (cp : CProof F G1 G2) (sch : Scheduler), equ.verify e sch cp crs = .ok true →
        equ.Holds (cp.xcoms.coms.map (x · • crs.g1_gen)) (cp.ycoms.coms.map y)) ∧
      (∀ (equ : MSMEG2 F G2) (cp : CProof F G1 G2) (sch : Scheduler), equ.verify e sch cp crs = .ok true →
        equ.Holds (cp.xcoms.coms.map x) (cp.ycoms.coms.map (y · • crs.g2_gen))) ∧
      (∀ (equ : QuadEqu F) (cp : CProof F G1 G2) (sch : Scheduler), equ.verify e sch cp crs = .ok true →
        equ.Holds (cp.xcoms.coms.map x) (cp.ycoms.coms.map y)) := by
  obtain ⟨X, x, Y, y, hX, hx, hY, hy, h1, h2, h3, h4⟩ := C12_joint_soundness e he crs hc h0
  obtain ⟨o1, o2⟩ := C78_open_iff e he crs hc h0
  have eX : X = fun c => x c • crs.g1_gen := funext fun c => ((hX c _).mp ((o1 c _).mp ((hx c _).mpr rfl))).symm
  have eY : Y = fun c => y c • crs.g2_gen := funext fun c => ((hY c _).mp ((o2 c _).mp ((hy c _).mpr rfl))).symm
  subst eX eY
  exact ⟨x, y, hx, hy, h1, h2, h3, h4⟩

/-- The hypotheses of `C78_prove` are met by commitments to the scalars `[2]` and `[3, 4]`. -/
example (sch : Nat → Scheduler) (sch' : Scheduler) : ∃ (xc yc : Commit Ex.K Ex.K) (r s : Nat),
    batchCommitScalarToB1 [2] Ex.crs7 (0 : Nat) = .ok (xc, r) ∧
    batchCommitScalarToB2 [3, 4] Ex.crs7 r = .ok (yc, s) ∧
    (∃ pf r', Ex.quad7.prove sch [2] [3, 4] xc yc Ex.crs7 s = .ok (pf, r') ∧
      Ex.quad7.verify Ex.e7 sch' ⟨xc, yc, [pf]⟩ Ex.crs7 = .ok true) ∧
    ∃ pf r', Ex.msm1_7.prove sch [2] [3, 4] (xc.asGroup [2]) yc Ex.crs7 s = .ok (pf, r') ∧
      Ex.msm1_7.verify Ex.e7 sch' ⟨xc, yc, [pf]⟩ Ex.crs7 = .ok true := by
  obtain ⟨xc, r, h1, o1⟩ := C20_history_B1 (key := Ex.crs7) (by decide) (.batch [(2 : Ex.K)]) (by simp [Hist.NoEmptyBatch]) (0 : Nat)
  obtain ⟨yc, s, h2, o2⟩ := C20_history_B2 (key := Ex.crs7) (by decide) (.batch [(3 : Ex.K), 4]) (by simp [Hist.NoEmptyBatch]) r
  obtain ⟨-, p2, -, p4⟩ := C78_prove Ex.e7 sch sch' (key := Ex.crs7) rfl rfl [2] [3, 4] xc yc (by simp) (by simp) o1 o2 s
  exact ⟨xc, yc, r, s, h1, h2, p4 _ Ex.quad7_dims Ex.quad7_holds, p2 _ Ex.msm1_7_dims Ex.msm1_7_holds⟩

/-! ### Instances -/

namespace Ex

example := C78_commit_B1 (F := K) (key := crs7) rfl [3, 4] (by simp) (1 : Nat) ([1, 3, 2, 4] : List K) rfl
example := C78_commit_B2 (F := K) (key := crs7) rfl [3, 4] (by simp) (1 : Nat) ([1, 3, 2, 4] : List K) rfl
example := C78_open_iff e7 prime7 crs7 crs7_generated crs7_nonzero
example := C78_joint_soundness e7 prime7 crs7 crs7_generated crs7_nonzero

end Ex

end GS
