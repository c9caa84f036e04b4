import Verif.Lemmas.Raw
import Verif.Spec.Domain
import Verif.Props.Soundness
import Verif.Props.Completeness
import Verif.Props.Example

/-!
# C101: points outside the subgroup of prime order

`verify` cannot see the part of a point whose order divides the cofactor: it decides about the projections.
-/

set_option linter.unusedSectionVars false

namespace GS
variable {F G1 G2 GT H1 H2 : Type} [Field F] [AddCommGroup G1] [SMul F G1] [AddCommGroup G2] [SMul F G2]
  [AddCommGroup GT] [Module F GT] [DecidableEq GT] [AddCommGroup H1] [Module F H1] [AddCommGroup H2] [Module F H2]
  {e' : G1 → G2 → GT} {e : H1 →ₗ[F] H2 →ₗ[F] GT} {f1 : G1 → H1} {f2 : G2 → H2}

/-- C101. The verifier modelled without assuming any law of its points is the verifier of the other properties where
the points form a module and the pairing is bilinear. -/
theorem C101_agrees (e : H1 →ₗ[F] H2 →ₗ[F] GT) (sch : Scheduler) (cp : CProof F H1 H2) (crs : CRS H1 H2 GT) :
    (∀ equ : PPE F H1 H2 GT, equ.verifyRaw (fun x y => e x y) sch cp crs = equ.verify e sch cp crs) ∧
    (∀ equ : MSMEG1 F H1, equ.verifyRaw (fun x y => e x y) sch cp crs = equ.verify e sch cp crs) ∧
    (∀ equ : MSMEG2 F H2, equ.verifyRaw (fun x y => e x y) sch cp crs = equ.verify e sch cp crs) ∧
    (∀ equ : QuadEqu F, equ.verifyRaw (fun x y => e x y) sch cp crs = equ.verify e sch cp crs) :=
  ⟨fun _ => rfl, fun _ => rfl, fun _ => rfl, fun _ => rfl⟩

/-- C101 for PPE: the result on unchecked points, including the panic, is the result on their projections. -/
theorem C101_ppe (he : Ignores e' e f1 f2) (h1 : Projects F f1) (h2 : Projects F f2) (sch : Scheduler)
    (equ : PPE F G1 G2 GT) (cp : CProof F G1 G2) (crs : CRS G1 G2 GT) :
    equ.verifyRaw e' sch cp crs = (equ.on f1 f2).verify e sch (cp.on f1 f2) (crs.on f1 f2) := by
  unfold PPE.verifyRaw PPE.verify
  simp only [CProof.on, List.length_map, Raw.idx_map, Raw.map_bind]
  congr 1; funext _
  congr 1; funext pf
  simp only [PPE.on, EquProof.on, Commit.on, CRS.on, Raw.pairingSum_on he, Raw.batch1_on h1, Raw.batch2_on h2,
    Raw.vecToColVec_map, Raw.leftMul_on h2, Raw.map_bind, Raw.colVecToVec_map]
  rfl

/-- C101 for MSMEG1. -/
theorem C101_msmeg1 (he : Ignores e' e f1 f2) (h1 : Projects F f1) (h2 : Projects F f2) (sch : Scheduler)
    (equ : MSMEG1 F G1) (cp : CProof F G1 G2) (crs : CRS G1 G2 GT) :
    equ.verifyRaw e' sch cp crs = (equ.on f1).verify e sch (cp.on f1 f2) (crs.on f1 f2) := by
  unfold MSMEG1.verifyRaw MSMEG1.verify
  simp only [CProof.on, List.length_map, Raw.idx_map, Raw.map_bind]
  congr 1; funext _
  congr 1; funext pf
  simp only [MSMEG1.on, Raw.batchScalar2_on h2, Raw.target1_on he h1 h2]
  simp only [EquProof.on, Commit.on, CRS.on, Raw.pairingSum_on he, Raw.batch1_on h1,
    Raw.vecToColVec_map, Raw.leftMul_on h2, Raw.map_bind, Raw.colVecToVec_map, Raw.idx_map, Raw.pairing_on he]
  rfl

/-- C101 for MSMEG2. -/
theorem C101_msmeg2 (he : Ignores e' e f1 f2) (h1 : Projects F f1) (h2 : Projects F f2) (sch : Scheduler)
    (equ : MSMEG2 F G2) (cp : CProof F G1 G2) (crs : CRS G1 G2 GT) :
    equ.verifyRaw e' sch cp crs = (equ.on f2).verify e sch (cp.on f1 f2) (crs.on f1 f2) := by
  unfold MSMEG2.verifyRaw MSMEG2.verify
  simp only [CProof.on, List.length_map, Raw.idx_map, Raw.map_bind]
  congr 1; funext _
  congr 1; funext pf
  simp only [MSMEG2.on, Raw.batchScalar1_on h1, Raw.target2_on he h1 h2]
  simp only [EquProof.on, Commit.on, CRS.on, Raw.pairingSum_on he, Raw.batch2_on h2,
    Raw.vecToColVec_map, Raw.leftMul_on h2, Raw.map_bind, Raw.colVecToVec_map, Raw.idx_map, Raw.pairing_on he]
  rfl

/-- C101 for quadratic equations. -/
theorem C101_quad (he : Ignores e' e f1 f2) (h1 : Projects F f1) (h2 : Projects F f2) (sch : Scheduler)
    (equ : QuadEqu F) (cp : CProof F G1 G2) (crs : CRS G1 G2 GT) :
    equ.verifyRaw e' sch cp crs = equ.verify e sch (cp.on f1 f2) (crs.on f1 f2) := by
  unfold QuadEqu.verifyRaw QuadEqu.verify
  simp only [CProof.on, List.length_map, Raw.idx_map, Raw.map_bind]
  congr 1; funext _
  congr 1; funext pf
  simp only [Raw.batchScalar1_on h1, Raw.batchScalar2_on h2, Raw.targetQuad_on he h1 h2]
  simp only [EquProof.on, Commit.on, CRS.on, Raw.pairingSum_on he,
    Raw.vecToColVec_map, Raw.leftMul_on h2, Raw.map_bind, Raw.colVecToVec_map, Raw.idx_map, Raw.pairing_on he]

/-- C101: what an accepted proof with unchecked points shows: if the CRS comes from `generate_crs`, the projections of the
commitments open to values that satisfy the projected equation. -/
theorem C101_sound (hp : PrimeGroups e) (he : Ignores e' e f1 f2) (h1 : Projects F f1) (h2 : Projects F f2) (sch : Scheduler)
    (cp : CProof F G1 G2) (crs : CRS G1 G2 GT) (hc : GeneratedCrs e (crs.on f1 f2)) (h0 : (crs.on f1 f2).NonzeroGens) :
    (∀ equ : PPE F G1 G2 GT, equ.verifyRaw e' sch cp crs = .ok true → ∃ x y,
      List.Forall₂ (CanOpenGroup F (crs.on f1 f2).u) (cp.on f1 f2).xcoms.coms x ∧
      List.Forall₂ (CanOpenGroup F (crs.on f1 f2).v) (cp.on f1 f2).ycoms.coms y ∧ (equ.on f1 f2).Holds e x y) ∧
    (∀ equ : MSMEG1 F G1, equ.verifyRaw e' sch cp crs = .ok true → ∃ x y,
      List.Forall₂ (CanOpenGroup F (crs.on f1 f2).u) (cp.on f1 f2).xcoms.coms x ∧
      List.Forall₂ (CanOpenScalar (crs.on f1 f2).v (crs.on f1 f2).g2_gen) (cp.on f1 f2).ycoms.coms y ∧ (equ.on f1).Holds x y) ∧
    (∀ equ : MSMEG2 F G2, equ.verifyRaw e' sch cp crs = .ok true → ∃ x y,
      List.Forall₂ (CanOpenScalar (crs.on f1 f2).u (crs.on f1 f2).g1_gen) (cp.on f1 f2).xcoms.coms x ∧
      List.Forall₂ (CanOpenGroup F (crs.on f1 f2).v) (cp.on f1 f2).ycoms.coms y ∧ (equ.on f2).Holds x y) ∧
    (∀ equ : QuadEqu F, equ.verifyRaw e' sch cp crs = .ok true → ∃ x y,
      List.Forall₂ (CanOpenScalar (crs.on f1 f2).u (crs.on f1 f2).g1_gen) (cp.on f1 f2).xcoms.coms x ∧
      List.Forall₂ (CanOpenScalar (crs.on f1 f2).v (crs.on f1 f2).g2_gen) (cp.on f1 f2).ycoms.coms y ∧ equ.Holds x y) := by
  refine ⟨fun equ h => ?_, fun equ h => ?_, fun equ h => ?_, fun equ h => ?_⟩
  · rw [C101_ppe he h1 h2] at h
    obtain ⟨x, y, hx, hy, hh⟩ := C05_ppe_sound e hp _ hc h0 _ _ sch h
    exact ⟨x, y, (hx x).mpr rfl, (hy y).mpr rfl, hh⟩
  · rw [C101_msmeg1 he h1 h2] at h
    obtain ⟨x, y, hx, hy, hh⟩ := C06_msmeg1_sound e hp _ hc h0 _ _ sch h
    exact ⟨x, y, (hx x).mpr rfl, (hy y).mpr rfl, hh⟩
  · rw [C101_msmeg2 he h1 h2] at h
    obtain ⟨x, y, hx, hy, hh⟩ := C07_msmeg2_sound e hp _ hc h0 _ _ sch h
    exact ⟨x, y, (hx x).mpr rfl, (hy y).mpr rfl, hh⟩
  · rw [C101_quad he h1 h2] at h
    obtain ⟨x, y, hx, hy, hh⟩ := C08_quad_sound e hp _ hc h0 _ _ sch h
    exact ⟨x, y, (hx x).mpr rfl, (hy y).mpr rfl, hh⟩

/-- C101, malleability: whoever knows a point `k ≠ 0` with projection `0` can change the first commitment of every accepted
message of any type, and the new message is accepted, too. -/
theorem C101_malleable (he : Ignores e' e f1 f2) (h1 : Projects F f1) (h2 : Projects F f2) (sch : Scheduler)
    (k : G1) (hk : k ≠ 0) (hk0 : f1 k = 0) (cp : CProof F G1 G2) (c : Com G1) (cs : List (Com G1)) (hc : cp.xcoms.coms = c :: cs) :
    ∃ cp' : CProof F G1 G2, cp' = ⟨⟨⟨c.c0, c.c1 + k⟩ :: cs, cp.xcoms.rand⟩, cp.ycoms, cp.equ_proofs⟩ ∧
      cp'.publicPart ≠ cp.publicPart ∧ ∀ crs : CRS G1 G2 GT,
      (∀ equ : PPE F G1 G2 GT, equ.verifyRaw e' sch cp' crs = equ.verifyRaw e' sch cp crs) ∧
      (∀ equ : MSMEG1 F G1, equ.verifyRaw e' sch cp' crs = equ.verifyRaw e' sch cp crs) ∧
      (∀ equ : MSMEG2 F G2, equ.verifyRaw e' sch cp' crs = equ.verifyRaw e' sch cp crs) ∧
      (∀ equ : QuadEqu F, equ.verifyRaw e' sch cp' crs = equ.verifyRaw e' sch cp crs) := by
  have hon : (⟨⟨⟨c.c0, c.c1 + k⟩ :: cs, cp.xcoms.rand⟩, cp.ycoms, cp.equ_proofs⟩ : CProof F G1 G2).on f1 f2 = cp.on f1 f2 := by
    simp only [CProof.on, Commit.on, hc, List.map_cons, Com.on, h1.add, hk0, add_zero]
  refine ⟨_, rfl, ?_, fun crs => ⟨fun equ => ?_, fun equ => ?_, fun equ => ?_, fun equ => ?_⟩⟩
  · intro h
    have := congrArg Prod.fst h
    simp only [CProof.publicPart, hc, List.cons.injEq, and_true] at this
    exact hk (left_eq_add.mp (congrArg Com.c1 this).symm)
  · rw [C101_ppe he h1 h2, C101_ppe he h1 h2, hon]
  · rw [C101_msmeg1 he h1 h2, C101_msmeg1 he h1 h2, hon]
  · rw [C101_msmeg2 he h1 h2, C101_msmeg2 he h1 h2, hon]
  · rw [C101_quad he h1 h2, C101_quad he h1 h2, hon]

/-- C101, false statements: `j1` embeds the subgroup in `G1`. An accepted proof in the subgroup is also accepted for the equation
whose target has `k ≠ 0` with projection `0` added to it. That equation is satisfied by no values of the subgroup. -/
theorem C101_false_accepted (he : Ignores e' e f1 f2) (h1 : Projects F f1) (h2 : Projects F f2) {j1 : H1 → G1} {j2 : H2 → G2}
    (hj1 : ∀ x, f1 (j1 x) = x) (hj2 : ∀ y, f2 (j2 y) = y) (hadd : ∀ x y, j1 (x + y) = j1 x + j1 y) (hsmul : ∀ (a : F) x, j1 (a • x) = a • j1 x)
    (k : G1) (hk : k ≠ 0) (hk0 : f1 k = 0) (sch : Scheduler) (equ : MSMEG1 F H1) (cp : CProof F H1 H2) (crs : CRS H1 H2 GT)
    (h : equ.verify e sch cp crs = .ok true) :
    ∃ equ' : MSMEG1 F G1, equ' = { equ.on j1 with target := j1 equ.target + k } ∧
      equ'.verifyRaw e' sch (cp.on j1 j2) (crs.on j1 j2) = .ok true ∧
      ∀ (x : List H1) (y : List F),
        equLhs (fun (x : G1) (y : F) => y • x) equ'.a_consts (x.map j1) equ'.b_consts y equ'.gamma ≠ equ'.target := by
  have c1 : f1 ∘ j1 = id := funext hj1
  have c2 : f2 ∘ j2 = id := funext hj2
  have o1 : Com.on f1 ∘ Com.on j1 = id := by funext c; simp [Com.on, hj1]
  have o2 : Com.on f2 ∘ Com.on j2 = id := by funext c; simp [Com.on, hj2]
  refine ⟨_, rfl, ?_, fun x y => ?_⟩
  · rw [C101_msmeg1 he h1 h2]
    have e1 : ({ equ.on j1 with target := j1 equ.target + k } : MSMEG1 F G1).on f1 = equ := by
      simp only [MSMEG1.on, List.map_map, c1, List.map_id, h1.add, hj1, hk0, add_zero]
    have e2 : (cp.on j1 j2).on f1 f2 = cp := by
      obtain ⟨⟨xc, xr⟩, ⟨yc, yr⟩, pfs⟩ := cp
      have : EquProof.on f1 f2 ∘ EquProof.on j1 j2 = (id : EquProof F H1 H2 → _) := by
        funext pf
        obtain ⟨p, t, ty, r⟩ := pf
        simp only [Function.comp, EquProof.on, List.map_map, o1, o2, List.map_id, id]
      simp only [CProof.on, Commit.on, List.map_map, o1, o2, List.map_id, this]
    have e3 : (crs.on j1 j2).on f1 f2 = crs := by
      simp only [CRS.on, List.map_map, o1, o2, List.map_id, hj1, hj2]
    rw [e1, e2, e3]
    exact h
  · have hz : j1 0 = 0 := by
      have h := hadd 0 0
      rw [add_zero] at h
      exact left_eq_add.mp h
    have hsum : ∀ l : List H1, (l.map j1).sum = j1 l.sum := by
      intro l
      induction l with
      | nil => exact hz.symm
      | cons a l ih => rw [List.map_cons, List.sum_cons, List.sum_cons, hadd, ih]
    have hrow : ∀ (x : H1) (row y : List F), (List.zipWith (fun g y => g • y • j1 x) row y).sum =
        j1 (List.zipWith (fun g y => g • y • x) row y).sum := by
      intro x row y
      rw [← hsum, List.map_zipWith]
      simp only [hsmul]
    have hl : equLhs (fun (x : G1) (y : F) => y • x) (equ.a_consts.map j1) (x.map j1) equ.b_consts y equ.gamma =
        j1 (equLhs (fun (x : H1) (y : F) => y • x) equ.a_consts x equ.b_consts y equ.gamma) := by
      unfold equLhs
      rw [hadd, hadd, ← hsum, ← hsum, ← hsum]
      simp only [List.map_zipWith, List.zipWith_map_left, hsmul, hrow]
    intro hh
    change equLhs (fun (x : G1) (y : F) => y • x) (equ.a_consts.map j1) (x.map j1) equ.b_consts y equ.gamma = j1 equ.target + k at hh
    rw [hl] at hh
    have hf := congrArg f1 hh
    rw [hj1, h1.add, hj1, hk0, add_zero] at hf
    rw [hf] at hh
    exact hk (left_eq_add.mp hh)

namespace Ex

/-- The cyclic group of order 21, with cofactor 3. -/
structure P21 where
  a : ZMod 7
  b : ZMod 3
  deriving DecidableEq

def P21.toProd : P21 ≃ ZMod 7 × ZMod 3 := ⟨fun p => (p.a, p.b), fun p => ⟨p.1, p.2⟩, fun _ => rfl, fun _ => rfl⟩
instance : AddCommGroup P21 := P21.toProd.addCommGroup

/-- Multiplication by a scalar is multiplication by its representative between 0 and 6. -/
instance : SMul K P21 := ⟨fun s p => s.val • p⟩

theorem P21.add_a (p q : P21) : (p + q).a = p.a + q.a := rfl
theorem P21.nsmul_a (n : Nat) (p : P21) : (n • p).a = n • p.a := by
  induction n with
  | zero => simp; rfl
  | succ n ih => rw [succ_nsmul, succ_nsmul, P21.add_a, ih]

theorem p21_projects : Projects K P21.a where
  add _ _ := rfl
  smul s p := by
    show (s.val • p).a = s • p.a
    rw [P21.nsmul_a, nsmul_eq_mul, ZMod.natCast_zmod_val, smul_eq_mul]

theorem k_projects : Projects K (id : K → K) := ⟨fun _ _ => rfl, fun _ _ => rfl⟩

/-- Points of order 3 do not form a vector space over the scalars: `7 = 0` is not zero on them. -/
example : (3 + 4 : K) • (⟨0, 1⟩ : P21) ≠ (3 : K) • (⟨0, 1⟩ : P21) + (4 : K) • (⟨0, 1⟩ : P21) := by decide

/-- The pairing that ignores points of order 3 on the left. -/
def e21 (p : P21) (y : K) : K := e7 p.a y

theorem e21_ignores : Ignores e21 e7 P21.a id := fun _ _ => rfl

/-- The hypotheses of C101 are met by a non-trivial case. -/
example (sch : Scheduler) (cp : CProof K P21 K) (crs : CRS P21 K K) (equ : PPE K P21 K K) :
    equ.verifyRaw e21 sch cp crs = (equ.on P21.a id).verify e7 sch (cp.on P21.a id) (crs.on P21.a id) :=
  C101_ppe e21_ignores p21_projects k_projects sch equ cp crs

/-- The embedding of the subgroup of order 7. -/
def j21 (x : K) : P21 := ⟨x, 0⟩

theorem j21_smul (s x : K) : j21 (s • x) = s • j21 x := by decide +revert

/-- An equation in the group of order 21 that is false for all values of the subgroup of order 7, with an accepted proof. -/
example (sch : Scheduler) : ∃ cp, msm1_7.verify e7 sch cp crs7 = .ok true ∧
    ∃ equ' : MSMEG1 K P21, equ' = { msm1_7.on j21 with target := j21 1 + ⟨0, 1⟩ } ∧
      equ'.verifyRaw e21 sch (cp.on j21 id) (crs7.on j21 id) = .ok true ∧
      ∀ (x y : List K),
        equLhs (fun (x : P21) (y : K) => y • x) equ'.a_consts (x.map j21) equ'.b_consts y equ'.gamma ≠ equ'.target := by
  obtain ⟨cp, rng', -, h⟩ := C02_msmeg1_complete e7 msm1_7 [2] [3, 4] crs7 (0 : Nat) (fun _ => sch) sch (by simp) (by simp)
    msm1_7_dims rfl rfl msm1_7_holds
  exact ⟨cp, h, C101_false_accepted e21_ignores p21_projects k_projects (fun _ => rfl) (fun _ => rfl)
    (fun _ _ => P21.toProd.injective (by simp [P21.toProd, j21]; exact ⟨rfl, rfl⟩)) j21_smul ⟨0, 1⟩ (by decide) rfl sch msm1_7 cp crs7 h⟩

end Ex

/-! ### Instances -/

namespace Ex

example (sch : Scheduler) (cp : CProof K P21 K) (crs : CRS P21 K K) (equ : MSMEG1 K P21) :=
  C101_msmeg1 e21_ignores p21_projects k_projects sch equ cp crs
example (sch : Scheduler) (cp : CProof K P21 K) (crs : CRS P21 K K) (equ : MSMEG2 K K) :=
  C101_msmeg2 e21_ignores p21_projects k_projects sch equ cp crs
example (sch : Scheduler) (cp : CProof K P21 K) (crs : CRS P21 K K) (equ : QuadEqu K) :=
  C101_quad e21_ignores p21_projects k_projects sch equ cp crs

theorem crs7_on_j21 : (crs7.on j21 id).on P21.a id = crs7 := by
  simp [CRS.on, Com.on, j21, Function.comp_def]

example (sch : Scheduler) (cp : CProof K P21 K) :=
  C101_sound prime7 e21_ignores p21_projects k_projects sch cp (crs7.on j21 id) (crs7_on_j21 ▸ crs7_generated) (crs7_on_j21 ▸ crs7_nonzero)
example (sch : Scheduler) := C101_malleable e21_ignores p21_projects k_projects sch ⟨0, 1⟩ (by decide) rfl
  (msm1_7_msg.on j21 id) _ _ rfl

end Ex

end GS
