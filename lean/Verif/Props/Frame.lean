import Verif.Props.Verification
import Verif.Props.Domains
import Verif.Props.Example

/-!
# C79: which parts of the CRS a call reads

No call of the library reads `gt_gen`; PPE proofs do not depend on the generators at all, MSMEG1 proofs not on
`g1_gen`, MSMEG2 proofs not on `g2_gen`.  The generators that are read matter: an accepted proof stays accepted
under another value exactly if one linear relation between commitments and target holds.
-/

set_option linter.unusedSectionVars false

namespace GS
variable {F G1 G2 GT : Type} [Field F] [AddCommGroup G1] [Module F G1] [AddCommGroup G2] [Module F G2]
  [AddCommGroup GT] [Module F GT] {ρ : Type} [Rng ρ F G1 G2]

/-- C79: committing to group elements reads nothing but the key of that side, and committing to scalars nothing but the key and the
generator of that side. -/
theorem C79_commit (crs : CRS G1 G2 GT) (u : List (Com G1)) (v : List (Com G2)) (g : G1) (h : G2) (z : GT) (rng : ρ) :
    (∀ x, commitG1 (F := F) x { crs with v := v, g1_gen := g, g2_gen := h, gt_gen := z } rng = commitG1 x crs rng) ∧
    (∀ y, commitG2 (F := F) y { crs with u := u, g1_gen := g, g2_gen := h, gt_gen := z } rng = commitG2 y crs rng) ∧
    (∀ x, batchCommitG1 (F := F) x { crs with v := v, g1_gen := g, g2_gen := h, gt_gen := z } rng = batchCommitG1 x crs rng) ∧
    (∀ y, batchCommitG2 (F := F) y { crs with u := u, g1_gen := g, g2_gen := h, gt_gen := z } rng = batchCommitG2 y crs rng) ∧
    (∀ x : F, commitScalarToB1 x { crs with v := v, g2_gen := h, gt_gen := z } rng = commitScalarToB1 x crs rng) ∧
    (∀ y : F, commitScalarToB2 y { crs with u := u, g1_gen := g, gt_gen := z } rng = commitScalarToB2 y crs rng) ∧
    (∀ x : List F, batchCommitScalarToB1 x { crs with v := v, g2_gen := h, gt_gen := z } rng = batchCommitScalarToB1 x crs rng) ∧
    (∀ y : List F, batchCommitScalarToB2 y { crs with u := u, g1_gen := g, gt_gen := z } rng = batchCommitScalarToB2 y crs rng) :=
  ⟨fun _ => rfl, fun _ => rfl, fun _ => rfl, fun _ => rfl, fun _ => rfl, fun _ => rfl, fun _ => rfl, fun _ => rfl⟩

variable (sch : Nat → Scheduler) (crs : CRS G1 G2 GT) (rng : ρ) (xc : Commit F G1) (yc : Commit F G2)

/-- C79, proving. -/
theorem C79_prove (g : G1) (h : G2) (z : GT) :
    (∀ (equ : PPE F G1 G2 GT) x y,
      equ.prove sch x y xc yc { crs with g1_gen := g, g2_gen := h, gt_gen := z } rng
        = equ.prove sch x y xc yc crs rng ∧
      equ.commitAndProve sch x y { crs with g1_gen := g, g2_gen := h, gt_gen := z } rng
        = equ.commitAndProve sch x y crs rng) ∧
    (∀ (equ : MSMEG1 F G1) x y,
      equ.prove sch x y xc yc { crs with g1_gen := g, gt_gen := z } rng = equ.prove sch x y xc yc crs rng ∧
      equ.commitAndProve sch x y { crs with g1_gen := g, gt_gen := z } rng = equ.commitAndProve sch x y crs rng) ∧
    (∀ (equ : MSMEG2 F G2) x y,
      equ.prove sch x y xc yc { crs with g2_gen := h, gt_gen := z } rng = equ.prove sch x y xc yc crs rng ∧
      equ.commitAndProve sch x y { crs with g2_gen := h, gt_gen := z } rng = equ.commitAndProve sch x y crs rng) ∧
    (∀ (equ : QuadEqu F) x y,
      equ.prove sch x y xc yc { crs with gt_gen := z } rng = equ.prove sch x y xc yc crs rng ∧
      equ.commitAndProve sch x y { crs with gt_gen := z } rng = equ.commitAndProve sch x y crs rng) :=
  ⟨fun _ _ _ => ⟨rfl, rfl⟩, fun _ _ _ => ⟨rfl, rfl⟩, fun _ _ _ => ⟨rfl, rfl⟩, fun _ _ _ => ⟨rfl, rfl⟩⟩

variable [DecidableEq GT] (e : G1 →ₗ[F] G2 →ₗ[F] GT) (sch' : Scheduler) (cp : CProof F G1 G2)

/-- C79, verifying. -/
theorem C79_verify (g : G1) (h : G2) (z : GT) :
    (∀ equ : PPE F G1 G2 GT, equ.verify e sch' cp { crs with g1_gen := g, g2_gen := h, gt_gen := z }
      = equ.verify e sch' cp crs) ∧
    (∀ equ : MSMEG1 F G1, equ.verify e sch' cp { crs with g1_gen := g, gt_gen := z } = equ.verify e sch' cp crs) ∧
    (∀ equ : MSMEG2 F G2, equ.verify e sch' cp { crs with g2_gen := h, gt_gen := z } = equ.verify e sch' cp crs) ∧
    (∀ equ : QuadEqu F, equ.verify e sch' cp { crs with gt_gen := z } = equ.verify e sch' cp crs) :=
  ⟨fun _ => rfl, fun _ => rfl, fun _ => rfl, fun _ => rfl⟩

/-! ## The generators that are read -/

omit [DecidableEq GT] in
private theorem tensor_pair (c : Com G1) (d : Com G2) : tensor e c d = ComT.pairL e c d := by
  rw [← ComT.pairing_eq]; simp [tensor, ComT.pairing]

omit [DecidableEq GT] in
private theorem tensor_zero_left (d : Com G2) : tensor e 0 d = 0 := by rw [tensor_pair]; simp only [map_zero, LinearMap.zero_apply]

omit [DecidableEq GT] in
private theorem tensor_zero_right (c : Com G1) : tensor e c 0 = 0 := by rw [tensor_pair]; simp only [map_zero]

omit [DecidableEq GT] in
private theorem sum_shift_right (c : List (Com G1)) (b : List F) (w d : Com G2) :
    (List.zipWith (fun x b => tensor e x b) c (b.map fun b => b • (w + d))).sum =
      (List.zipWith (fun x b => tensor e x b) c (b.map fun b => b • w)).sum
      + tensor e (List.zipWith (fun b c => b • c) b c).sum d := by
  induction c generalizing b with
  | nil => simp [tensor_zero_left]
  | cons c0 c ih =>
    cases b with
    | nil => simp [tensor_zero_left]
    | cons b0 b =>
      simp only [List.map_cons, List.zipWith_cons_cons, List.sum_cons]
      rw [ih]
      generalize (List.zipWith (fun x b => tensor e x b) c (b.map fun b => b • w)).sum = s
      simp only [tensor_pair, map_add, smul_add, map_smul, LinearMap.add_apply, LinearMap.smul_apply]
      abel

omit [DecidableEq GT] in
private theorem sum_shift_left (a : List F) (d : List (Com G2)) (w δ : Com G1) :
    (List.zipWith (fun a y => tensor e a y) (a.map fun a => a • (w + δ)) d).sum =
      (List.zipWith (fun a y => tensor e a y) (a.map fun a => a • w) d).sum
      + tensor e δ (List.zipWith (fun a d => a • d) a d).sum := by
  induction d generalizing a with
  | nil => cases a <;> simp [tensor_zero_right]
  | cons d0 d ih =>
    cases a with
    | nil => simp [tensor_zero_right]
    | cons a0 a =>
      simp only [List.map_cons, List.zipWith_cons_cons, List.sum_cons]
      rw [ih]
      generalize (List.zipWith (fun a y => tensor e a y) (a.map fun a => a • w) d).sum = s
      simp only [tensor_pair, map_add, smul_add, map_smul, LinearMap.add_apply, LinearMap.smul_apply]
      abel

omit [DecidableEq GT] in
private theorem tensor_emb_right_inj (he : PrimeGroups e) {δ : G2} (hδ : δ ≠ 0) (c c' : Com G1) :
    tensor e c (emb δ) = tensor e c' (emb δ) ↔ c = c' := by
  constructor
  · intro h
    rw [ComT.ext_iff] at h
    obtain ⟨-, h1, -, h3⟩ := h
    simp only [tensor, emb] at h1 h3
    have k1 := he.nondeg (c.c0 - c'.c0) δ (by rw [map_sub, LinearMap.sub_apply, h1, sub_self])
    have k3 := he.nondeg (c.c1 - c'.c1) δ (by rw [map_sub, LinearMap.sub_apply, h3, sub_self])
    ext
    · exact sub_eq_zero.mp (k1.resolve_right hδ)
    · exact sub_eq_zero.mp (k3.resolve_right hδ)
  · rintro rfl; rfl

omit [DecidableEq GT] in
private theorem tensor_emb_left_inj (he : PrimeGroups e) {δ : G1} (hδ : δ ≠ 0) (c c' : Com G2) :
    tensor e (emb δ) c = tensor e (emb δ) c' ↔ c = c' := by
  constructor
  · intro h
    rw [ComT.ext_iff] at h
    obtain ⟨-, -, h1, h3⟩ := h
    simp only [tensor, emb] at h1 h3
    have k1 := he.nondeg δ (c.c0 - c'.c0) (by rw [map_sub, h1, sub_self])
    have k3 := he.nondeg δ (c.c1 - c'.c1) (by rw [map_sub, h3, sub_self])
    ext
    · exact sub_eq_zero.mp (k1.resolve_left hδ)
    · exact sub_eq_zero.mp (k3.resolve_left hδ)
  · rintro rfl; rfl

private theorem emb_sub' {G : Type} [AddCommGroup G] (g g' : G) : (emb g' : Com G) = emb g + emb (g' - g) := by
  ext <;> simp [emb]

private theorem eq_shift {A : Type} [AddCommGroup A] {l r x y : A} (h : l = r) : l + x = r + y ↔ x = y := by
  rw [h]; exact add_right_inj r

/-- C79, MSMEG1: under another `g2_gen` an accepted proof is accepted exactly if `Σ b_i c_i` is the embedded
target. -/
theorem C79_msmeg1_other_gen (he : PrimeGroups e) (equ : MSMEG1 F G1) (hacc : equ.verify e sch' cp crs = .ok true)
    (g : G2) (hg : g ≠ crs.g2_gen) :
    ∃ r, equ.verify e sch' cp { crs with g2_gen := g } = .ok r ∧
      (r = true ↔ (List.zipWith (fun b c => b • c) equ.b_consts cp.xcoms.coms).sum = ⟨0, equ.target⟩) := by
  have hok : (equ.verify e sch' cp { crs with g2_gen := g }).Ok :=
    (C37_msmeg1 e sch' cp _ equ).2 ((C37_msmeg1 e sch' cp crs equ).1 ⟨_, hacc⟩)
  obtain ⟨r, hr⟩ := hok
  refine ⟨r, hr, ?_⟩
  obtain ⟨pf, hpf, h1⟩ := C53_msmeg1 (e := e) (crs := crs) cp sch' true equ hacc
  obtain ⟨pf', hpf', h2⟩ := C53_msmeg1 (e := e) cp sch' r equ hr
  rw [hpf] at hpf'
  obtain rfl : pf = pf' := by simpa using hpf'
  obtain ⟨v0, v1, v', t0, t', hv, ht, heq⟩ := h1.1 rfl
  rw [h2]
  have key : gsEquation e (equ.a_consts.map emb) cp.xcoms.coms (equ.b_consts.map fun b => b • (v1 + emb g))
      cp.ycoms.coms equ.gamma (tensor e (emb equ.target) (v1 + emb g)) crs.u pf.pi [t0] [v0] ↔
      (List.zipWith (fun b c => b • c) equ.b_consts cp.xcoms.coms).sum = emb equ.target := by
    rw [← tensor_emb_right_inj e he (sub_ne_zero.2 hg), ← eq_shift heq]
    unfold gsEquation equLhs
    rw [emb_sub' crs.g2_gen g, ← add_assoc, sum_shift_right]
    simp only [tensor_pair, map_add]
    constructor <;> (intro h; rw [← sub_eq_zero] at h ⊢; rw [← h]; abel)
  constructor
  · rintro ⟨w0, w1, w', s0, s', hw, hs, h⟩
    rw [hv] at hw
    rw [ht] at hs
    obtain ⟨rfl, rfl, rfl⟩ : v0 = w0 ∧ v1 = w1 ∧ v' = w' := by simpa using hw
    obtain ⟨rfl, rfl⟩ : t0 = s0 ∧ t' = s' := by simpa using hs
    exact key.1 h
  · intro h
    exact ⟨v0, v1, v', t0, t', hv, ht, key.2 h⟩

/-- C79, MSMEG2: under another `g1_gen` an accepted proof is accepted exactly if `Σ a_j d_j` is the embedded
target. -/
theorem C79_msmeg2_other_gen (he : PrimeGroups e) (equ : MSMEG2 F G2) (hacc : equ.verify e sch' cp crs = .ok true)
    (g : G1) (hg : g ≠ crs.g1_gen) :
    ∃ r, equ.verify e sch' cp { crs with g1_gen := g } = .ok r ∧
      (r = true ↔ (List.zipWith (fun a d => a • d) equ.a_consts cp.ycoms.coms).sum = ⟨0, equ.target⟩) := by
  have hok : (equ.verify e sch' cp { crs with g1_gen := g }).Ok :=
    (C37_msmeg2 e sch' cp _ equ).2 ((C37_msmeg2 e sch' cp crs equ).1 ⟨_, hacc⟩)
  obtain ⟨r, hr⟩ := hok
  refine ⟨r, hr, ?_⟩
  obtain ⟨pf, hpf, h1⟩ := C53_msmeg2 (e := e) (crs := crs) cp sch' true equ hacc
  obtain ⟨pf', hpf', h2⟩ := C53_msmeg2 (e := e) cp sch' r equ hr
  rw [hpf] at hpf'
  obtain rfl : pf = pf' := by simpa using hpf'
  obtain ⟨u0, u1, u', p0, p', hu, hp, heq⟩ := h1.1 rfl
  rw [h2]
  have key : gsEquation e (equ.a_consts.map fun a => a • (u1 + emb g)) cp.xcoms.coms (equ.b_consts.map emb)
      cp.ycoms.coms equ.gamma (tensor e (u1 + emb g) (emb equ.target)) [u0] [p0] pf.theta crs.v ↔
      (List.zipWith (fun a d => a • d) equ.a_consts cp.ycoms.coms).sum = emb equ.target := by
    rw [← tensor_emb_left_inj e he (sub_ne_zero.2 hg), ← eq_shift heq]
    unfold gsEquation equLhs
    rw [emb_sub' crs.g1_gen g, ← add_assoc, sum_shift_left]
    simp only [tensor_pair, map_add, LinearMap.add_apply]
    constructor <;> (intro h; rw [← sub_eq_zero] at h ⊢; rw [← h]; abel)
  constructor
  · rintro ⟨w0, w1, w', s0, s', hw, hs, h⟩
    rw [hu] at hw
    rw [hp] at hs
    obtain ⟨rfl, rfl, rfl⟩ : u0 = w0 ∧ u1 = w1 ∧ u' = w' := by simpa using hw
    obtain ⟨rfl, rfl⟩ : p0 = s0 ∧ p' = s' := by simpa using hs
    exact key.1 h
  · intro h
    exact ⟨u0, u1, u', p0, p', hu, hp, key.2 h⟩

/-- C79, QuadEqu: under another `g2_gen` an accepted proof is accepted exactly if `Σ b_i c_i` is the target in the
form in which scalars are embedded on the left, `t (u_1 + (0, g1_gen))`. -/
theorem C79_quad_other_g2 (he : PrimeGroups e) (equ : QuadEqu F) (hacc : equ.verify e sch' cp crs = .ok true)
    (g : G2) (hg : g ≠ crs.g2_gen) :
    ∃ r, equ.verify e sch' cp { crs with g2_gen := g } = .ok r ∧
      (r = true ↔ ∃ u1, crs.u[1]? = some u1 ∧
        (List.zipWith (fun b c => b • c) equ.b_consts cp.xcoms.coms).sum
          = equ.target • (⟨u1.c0, u1.c1 + crs.g1_gen⟩ : Com G1)) := by
  have hok : (equ.verify e sch' cp { crs with g2_gen := g }).Ok :=
    (C37_quad e sch' cp _ equ).2 ((C37_quad e sch' cp crs equ).1 ⟨_, hacc⟩)
  obtain ⟨r, hr⟩ := hok
  refine ⟨r, hr, ?_⟩
  obtain ⟨pf, hpf, h1⟩ := C53_quad (e := e) (crs := crs) cp sch' true equ hacc
  obtain ⟨pf', hpf', h2⟩ := C53_quad (e := e) cp sch' r equ hr
  rw [hpf] at hpf'
  obtain rfl : pf = pf' := by simpa using hpf'
  obtain ⟨u0, u1, u', v0, v1, v', p0, p', t0, t', hu, hv, hp, ht, heq⟩ := h1.1 rfl
  rw [h2]
  have hW : (⟨u1.c0, u1.c1 + crs.g1_gen⟩ : Com G1) = u1 + emb crs.g1_gen := by ext <;> simp [emb]
  have key : gsEquation e (equ.a_consts.map fun a => a • (u1 + emb crs.g1_gen)) cp.xcoms.coms
      (equ.b_consts.map fun b => b • (v1 + emb g)) cp.ycoms.coms equ.gamma
      (equ.target • tensor e (u1 + emb crs.g1_gen) (v1 + emb g)) [u0] [p0] [t0] [v0] ↔
      (List.zipWith (fun b c => b • c) equ.b_consts cp.xcoms.coms).sum = equ.target • (u1 + emb crs.g1_gen) := by
    rw [← tensor_emb_right_inj e he (sub_ne_zero.2 hg), ← eq_shift heq]
    unfold gsEquation equLhs
    rw [emb_sub' crs.g2_gen g, ← add_assoc, sum_shift_right]
    simp only [tensor_pair, map_add, LinearMap.add_apply, smul_add, map_smul, LinearMap.smul_apply]
    constructor <;> (intro h; rw [← sub_eq_zero] at h ⊢; rw [← h]; abel)
  constructor
  · rintro ⟨w0, w1, w', x0, x1, x', q0, q', s0, s', hw, hx, hq, hs, h⟩
    simp only [hu, hv, hp, ht, List.cons.injEq] at hw hx hq hs
    obtain ⟨rfl, rfl, rfl⟩ := hw
    obtain ⟨rfl, rfl, rfl⟩ := hx
    obtain ⟨rfl, rfl⟩ := hq
    obtain ⟨rfl, rfl⟩ := hs
    exact ⟨u1, by simp [hu], hW ▸ key.1 h⟩
  · rintro ⟨w, hw, h⟩
    obtain rfl : u1 = w := by simpa [hu] using hw
    exact ⟨u0, u1, u', v0, v1, v', p0, p', t0, t', hu, hv, hp, ht, key.2 (hW ▸ h)⟩

/-- C79, QuadEqu: under another `g1_gen` an accepted proof is accepted exactly if `Σ a_j d_j` is the target in the
form in which scalars are embedded on the right, `t (v_1 + (0, g2_gen))`. -/
theorem C79_quad_other_g1 (he : PrimeGroups e) (equ : QuadEqu F) (hacc : equ.verify e sch' cp crs = .ok true)
    (g : G1) (hg : g ≠ crs.g1_gen) :
    ∃ r, equ.verify e sch' cp { crs with g1_gen := g } = .ok r ∧
      (r = true ↔ ∃ v1, crs.v[1]? = some v1 ∧
        (List.zipWith (fun a d => a • d) equ.a_consts cp.ycoms.coms).sum
          = equ.target • (⟨v1.c0, v1.c1 + crs.g2_gen⟩ : Com G2)) := by
  have hok : (equ.verify e sch' cp { crs with g1_gen := g }).Ok :=
    (C37_quad e sch' cp _ equ).2 ((C37_quad e sch' cp crs equ).1 ⟨_, hacc⟩)
  obtain ⟨r, hr⟩ := hok
  refine ⟨r, hr, ?_⟩
  obtain ⟨pf, hpf, h1⟩ := C53_quad (e := e) (crs := crs) cp sch' true equ hacc
  obtain ⟨pf', hpf', h2⟩ := C53_quad (e := e) cp sch' r equ hr
  rw [hpf] at hpf'
  obtain rfl : pf = pf' := by simpa using hpf'
  obtain ⟨u0, u1, u', v0, v1, v', p0, p', t0, t', hu, hv, hp, ht, heq⟩ := h1.1 rfl
  rw [h2]
  have hW : (⟨v1.c0, v1.c1 + crs.g2_gen⟩ : Com G2) = v1 + emb crs.g2_gen := by ext <;> simp [emb]
  have key : gsEquation e (equ.a_consts.map fun a => a • (u1 + emb g)) cp.xcoms.coms
      (equ.b_consts.map fun b => b • (v1 + emb crs.g2_gen)) cp.ycoms.coms equ.gamma
      (equ.target • tensor e (u1 + emb g) (v1 + emb crs.g2_gen)) [u0] [p0] [t0] [v0] ↔
      (List.zipWith (fun a d => a • d) equ.a_consts cp.ycoms.coms).sum = equ.target • (v1 + emb crs.g2_gen) := by
    rw [← tensor_emb_left_inj e he (sub_ne_zero.2 hg), ← eq_shift heq]
    unfold gsEquation equLhs
    rw [emb_sub' crs.g1_gen g, ← add_assoc, sum_shift_left]
    simp only [tensor_pair, map_add, LinearMap.add_apply, smul_add, map_smul]
    constructor <;> (intro h; rw [← sub_eq_zero] at h ⊢; rw [← h]; abel)
  constructor
  · rintro ⟨w0, w1, w', x0, x1, x', q0, q', s0, s', hw, hx, hq, hs, h⟩
    simp only [hu, hv, hp, ht, List.cons.injEq] at hw hx hq hs
    obtain ⟨rfl, rfl, rfl⟩ := hw
    obtain ⟨rfl, rfl, rfl⟩ := hx
    obtain ⟨rfl, rfl⟩ := hq
    obtain ⟨rfl, rfl⟩ := hs
    exact ⟨v1, by simp [hv], hW ▸ key.1 h⟩
  · rintro ⟨w, hw, h⟩
    obtain rfl : v1 = w := by simpa [hv] using hw
    exact ⟨u0, u1, u', v0, v1, v', p0, p', t0, t', hu, hv, hp, ht, key.2 (hW ▸ h)⟩

/-- The honest proof of the example, made by the counting RNG. -/
private def run1 : CProof Ex.K Ex.K Ex.K :=
  match Ex.msm1_7.commitAndProve (fun _ => seqSched) [2] [3, 4] Ex.crs7 (0 : Nat) with
  | .ok (cp, _) => cp
  | .error _ => ⟨⟨[], []⟩, ⟨[], []⟩, []⟩

/-- An accepted proof, rejected under another generator. -/
example : Ex.msm1_7.verify Ex.e7 seqSched run1 Ex.crs7 = .ok true ∧ (3 : Ex.K) ≠ Ex.crs7.g2_gen ∧
    Ex.msm1_7.verify Ex.e7 seqSched run1 { Ex.crs7 with g2_gen := 3 } = .ok false := by decide +kernel

private def run1' : CProof Ex.K Ex.K Ex.K :=
  match (⟨[0], [0], [[1]], 0⟩ : MSMEG1 Ex.K Ex.K).commitAndProve (fun _ => seqSched) [2] [0] Ex.crs7 (0 : Nat) with
  | .ok (cp, _) => cp
  | .error _ => ⟨⟨[], []⟩, ⟨[], []⟩, []⟩

/-- An accepted proof of `y x = 0`, still accepted under another generator. -/
example : (⟨[0], [0], [[1]], 0⟩ : MSMEG1 Ex.K Ex.K).verify Ex.e7 seqSched run1' Ex.crs7 = .ok true ∧
    (⟨[0], [0], [[1]], 0⟩ : MSMEG1 Ex.K Ex.K).verify Ex.e7 seqSched run1' { Ex.crs7 with g2_gen := 3 } = .ok true := by
  decide +kernel

private def run2 : CProof Ex.K Ex.K Ex.K :=
  match Ex.msm2_7.commitAndProve (fun _ => seqSched) [2] [3, 4] Ex.crs7 (0 : Nat) with
  | .ok (cp, _) => cp
  | .error _ => ⟨⟨[], []⟩, ⟨[], []⟩, []⟩

example : Ex.msm2_7.verify Ex.e7 seqSched run2 Ex.crs7 = .ok true ∧ (3 : Ex.K) ≠ Ex.crs7.g1_gen ∧
    Ex.msm2_7.verify Ex.e7 seqSched run2 { Ex.crs7 with g1_gen := 3 } = .ok false := by decide +kernel

private def run3 : CProof Ex.K Ex.K Ex.K :=
  match Ex.quad7.commitAndProve (fun _ => seqSched) [2] [3, 4] Ex.crs7 (0 : Nat) with
  | .ok (cp, _) => cp
  | .error _ => ⟨⟨[], []⟩, ⟨[], []⟩, []⟩

example : Ex.quad7.verify Ex.e7 seqSched run3 Ex.crs7 = .ok true ∧
    Ex.quad7.verify Ex.e7 seqSched run3 { Ex.crs7 with g1_gen := 3 } = .ok false ∧
    Ex.quad7.verify Ex.e7 seqSched run3 { Ex.crs7 with g2_gen := 3 } = .ok false := by decide +kernel

/-! ### Instances -/

namespace Ex

example := C79_msmeg1_other_gen crs7 e7 seqSched msm1_7_msg prime7 msm1_7 msm1_7_accepted (3 : K) (by decide)
example := C79_msmeg2_other_gen crs7 e7 seqSched msm2_7_msg prime7 msm2_7 msm2_7_accepted (3 : K) (by decide)
example := C79_quad_other_g2 crs7 e7 seqSched quad7_msg prime7 quad7 quad7_accepted (3 : K) (by decide)
example := C79_quad_other_g1 crs7 e7 seqSched quad7_msg prime7 quad7 quad7_accepted (3 : K) (by decide)

end Ex

end GS
