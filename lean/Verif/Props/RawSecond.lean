import Verif.Props.RawProve

/-!
# C106: what points outside the subgroup reveal, for the second group and for scalars

The second halves of `C106_secret_leaks` and `C106_crs_leaks`, and keys for scalars.
-/

set_option linter.unusedSectionVars false

namespace GS
variable {F G1 G2 GT : Type} [Field F] [AddCommGroup G1] [SMul F G1] [AddCommGroup G2] [SMul F G2] [AddCommGroup GT] {ρ : Type} [Rng ρ F G1 G2]

section leaks
variable {T : Type} [AddCommGroup T] [SMul F T] (hz : ∀ a : F, a • (0 : T) = 0)
include hz

/-- C106, secrets of the second group: suppose only the `i`-th constant of the first group has a part outside the subgroup, and its multiples by different scalars are different. Then what `commit_and_prove` publishes
determines the `i`-th value of the second group. -/
theorem C106_secret_leaks_second (t : G1 → T) (ht : Projects F t) (equ : PPE F G1 G2 GT) (crs : CRS G1 G2 GT) (hu : crs.u.length = 2)
    (hv : crs.v.length = 2) (hu0 : ∀ c ∈ crs.u, t c.c0 = 0 ∧ t c.c1 = 0) (i : Nat) (a : G1) (ha : equ.a_consts[i]? = some a)
    (hinj : ∀ k k' : F, k • t a = k' • t a → k = k') (h0 : ∀ j a', j ≠ i → equ.a_consts[j]? = some a' → t a' = 0)
    (x x' : List G1) (y y' : List G2) (sch sch' : Nat → Scheduler) (rng rng' : ρ)
    (hx : x ≠ []) (hy : y ≠ []) (hd : equ.Dims x.length y.length) (hx0 : ∀ w ∈ x, t w = 0)
    (hx' : x' ≠ []) (hy' : y' ≠ []) (hd' : equ.Dims x'.length y'.length) (hx0' : ∀ w ∈ x', t w = 0)
    (cp cp' : CProof F G1 G2) (s s' : ρ) (hrun : equ.commitAndProveRaw sch x y crs rng = .ok (cp, s))
    (hrun' : equ.commitAndProveRaw sch' x' y' crs rng' = .ok (cp', s')) (hpub : cp.publicPart = cp'.publicPart) : y[i]? = y'[i]? := by
  obtain ⟨u0, u1, hu⟩ := List.length_eq_two.mp hu
  obtain ⟨v0, v1, hv⟩ := List.length_eq_two.mp hv
  obtain ⟨R, S, pf, r, -, hS, hr, -, hth⟩ := Raw.ppe_run sch equ rng hx hy hd hu hv
  obtain ⟨R', S', pf', r', -, hS', hr', -, hth'⟩ := Raw.ppe_run sch' equ rng' hx' hy' hd' hu hv
  have hth := hth ht hz hx0 hu0
  have hth' := hth' ht hz hx0' hu0
  rw [hrun] at hr
  rw [hrun'] at hr'
  cases hr
  cases hr'
  simp only [CProof.publicPart, List.map_cons, List.map_nil, Prod.mk.injEq, List.cons.injEq, and_true] at hpub
  obtain ⟨-, hc, -, hp, -⟩ := hpub
  rw [hp, hth'] at hth
  simp only [List.cons.injEq, Com.mk.injEq, true_and, and_true] at hth
  have hi : i < equ.a_consts.length := (List.getElem?_eq_some_iff.mp ha).1
  have hiS : i < S.length := by rw [hS, ← hd.a]; exact hi
  have hiS' : i < S'.length := by rw [hS', ← hd'.a]; exact hi
  have e1 := fun g => Raw.zip_sum_single (t := t) hz g a S[i] equ.a_consts S i ha (List.getElem?_eq_getElem hiS) h0
  have e2 := fun g => Raw.zip_sum_single (t := t) hz g a S'[i] equ.a_consts S' i ha (List.getElem?_eq_getElem hiS') h0
  have q1 := hinj _ _ (((e2 Prod.fst).symm.trans hth.1).trans (e1 Prod.fst))
  have q2 := hinj _ _ (((e2 Prod.snd).symm.trans hth.2).trans (e1 Prod.snd))
  have hiy : i < y.length := hS ▸ hiS
  have hiy' : i < y'.length := hS' ▸ hiS'
  have hci := congrArg (·[i]?) hc
  simp only [List.getElem?_zipWith, List.getElem?_eq_getElem hiS, List.getElem?_eq_getElem hiS', List.getElem?_eq_getElem hiy,
    List.getElem?_eq_getElem hiy', q1, q2, Option.some.injEq] at hci
  have := congrArg Com.c1 (add_right_cancel hci)
  rw [List.getElem?_eq_getElem hiy, List.getElem?_eq_getElem hiy']
  exact congrArg some this

/-- C106, keys of the second group: as for the first, a CRS with parts outside the subgroup can make every commitment binding, and open to whoever knows its two dangerous parts. -/
theorem C106_crs_leaks_second (t : G2 → T) (ht : Projects F t) (crs : CRS G1 G2 GT) (v0 v1 : Com G2) (vs : List (Com G2))
    (hv : crs.v = v0 :: v1 :: vs)
    (h00 : ∀ a a' : F, a • t v0.c0 = a' • t v0.c0 → a = a') (h01 : t v0.c1 = 0) (h10 : t v1.c0 = 0)
    (h11 : ∀ a a' : F, a • t v1.c1 = a' • t v1.c1 → a = a') (y y' : G2) (hy : t y = 0) (hy' : t y' = 0) (rng rng' : ρ)
    (r r' : Commit F G2 × ρ) (hr : Raw.commitG2 y crs rng = .ok r) (hr' : Raw.commitG2 y' crs rng' = .ok r')
    (hc : r.1.coms = r'.1.coms) : y = y' ∧ r.1.rand = r'.1.rand := by
  simp only [Raw.commitG2, hv, vecToColVec, List.map_cons, idx2, idx, bind_ok_iff] at hr hr'
  simp at hr hr'
  subst hr hr'
  simp only [List.cons.injEq, and_true] at hc
  generalize (Rng.randF G1 G2 rng : F × ρ).1 = a at hc ⊢
  generalize (Rng.randF G1 G2 (Rng.randF G1 G2 rng : F × ρ).2 : F × ρ).1 = b at hc ⊢
  generalize (Rng.randF G1 G2 rng' : F × ρ).1 = a' at hc ⊢
  generalize (Rng.randF G1 G2 (Rng.randF G1 G2 rng' : F × ρ).2 : F × ρ).1 = b' at hc ⊢
  have hon := congrArg (Com.on t) hc
  simp only [Raw.on_add' (Raw.carries ht), Raw.on_scalarMul' (Raw.carries ht), Com2.linearMap, Raw.on_emb' (Raw.carries ht), hy, hy'] at hon
  have hc0 : (0 : T) + a • t v0.c0 + b • t v1.c0 = 0 + a' • t v0.c0 + b' • t v1.c0 := congrArg Com.c0 hon
  have hc1 : (0 : T) + a • t v0.c1 + b • t v1.c1 = 0 + a' • t v0.c1 + b' • t v1.c1 := congrArg Com.c1 hon
  simp only [h10, h01, hz, zero_add, add_zero] at hc0 hc1
  have ea := h00 _ _ hc0
  have eb := h11 _ _ hc1
  subst ea eb
  exact ⟨congrArg Com.c1 (add_right_cancel (add_right_cancel hc)), rfl⟩

/-- C106, keys for scalars: if of the first element of a key only the first half, and of the second element plus the generator only the second half, have parts outside the subgroup, a commitment to a scalar
determines the scalar. -/
theorem C106_scalar_leaks (crs : CRS G1 G2 GT) (rng rng' : ρ) :
    (∀ (t : G1 → T), Projects F t → ∀ (u0 u1 : Com G1) (us : List (Com G1)), crs.u = u0 :: u1 :: us → t u0.c1 = 0 →
      (∀ a a' : F, a • t (u1.c1 + crs.g1_gen) = a' • t (u1.c1 + crs.g1_gen) → a = a') → ∀ (x x' : F) (r r' : Commit F G1 × ρ),
      Raw.commitScalarToB1 x crs rng = .ok r → Raw.commitScalarToB1 x' crs rng' = .ok r' → r.1.coms = r'.1.coms → x = x') ∧
    (∀ (t : G2 → T), Projects F t → ∀ (v0 v1 : Com G2) (vs : List (Com G2)), crs.v = v0 :: v1 :: vs → t v0.c1 = 0 →
      (∀ a a' : F, a • t (v1.c1 + crs.g2_gen) = a' • t (v1.c1 + crs.g2_gen) → a = a') → ∀ (y y' : F) (r r' : Commit F G2 × ρ),
      Raw.commitScalarToB2 y crs rng = .ok r → Raw.commitScalarToB2 y' crs rng' = .ok r' → r.1.coms = r'.1.coms → y = y') := by
  constructor
  · intro t ht u0 u1 us hu h01 h11 x x' r r' hr hr' hc
    simp only [Raw.commitScalarToB1, Raw.scalarLinearMap1, hu, vecToColVec, List.map_cons, idx2, idx, bind_ok_iff] at hr hr'
    simp at hr hr'
    subst hr hr'
    simp only [List.cons.injEq, and_true] at hc
    have hon := congrArg (Com.on t) hc
    simp only [Raw.on_add' (Raw.carries ht), Raw.on_scalarMul' (Raw.carries ht), Raw.on_emb' (Raw.carries ht)] at hon
    have hc1 := congrArg Com.c1 hon
    change x • (t u1.c1 + t crs.g1_gen) + _ • t u0.c1 = x' • (t u1.c1 + t crs.g1_gen) + _ • t u0.c1 at hc1
    rw [h01, hz, hz, add_zero, add_zero, ← ht.add] at hc1
    exact h11 _ _ hc1
  · intro t ht u0 u1 us hu h01 h11 x x' r r' hr hr' hc
    simp only [Raw.commitScalarToB2, Raw.scalarLinearMap2, hu, vecToColVec, List.map_cons, idx2, idx, bind_ok_iff] at hr hr'
    simp at hr hr'
    subst hr hr'
    simp only [List.cons.injEq, and_true] at hc
    have hon := congrArg (Com.on t) hc
    simp only [Raw.on_add' (Raw.carries ht), Raw.on_scalarMul' (Raw.carries ht), Raw.on_emb' (Raw.carries ht)] at hon
    have hc1 := congrArg Com.c1 hon
    change x • (t u1.c1 + t crs.g2_gen) + _ • t u0.c1 = x' • (t u1.c1 + t crs.g2_gen) + _ • t u0.c1 at hc1
    rw [h01, hz, hz, add_zero, add_zero, ← ht.add] at hc1
    exact h11 _ _ hc1

end leaks

namespace Ex

/-- An equation whose only constant on the left has a part of order 11. -/
def ppe77' : PPE K P77 K K := ⟨[⟨5, 1⟩], [1], [[1]], 1⟩

theorem sim77_u : ∀ c ∈ (sim7.on (G2 := K) j77 id).u, t77 c.c0 = 0 ∧ t77 c.c1 = 0 := by
  intro c hc
  simp only [CRS.on, List.mem_map] at hc
  obtain ⟨c, -, rfl⟩ := hc
  exact ⟨rfl, rfl⟩

/-- The message tells the values of the second group apart, on a simulated CRS. -/
example (sch sch' : Nat → Scheduler) (rng rng' : Nat) (y y' : K) (h : y ≠ y') (cp cp' : CProof K P77 K) (s s' : Nat)
    (hr : ppe77'.commitAndProveRaw sch [j77 2] [y] (sim7.on j77 id) rng = .ok (cp, s)) (hr' : ppe77'.commitAndProveRaw sch' [j77 3] [y'] (sim7.on j77 id) rng' = .ok (cp', s')) :
    cp.publicPart ≠ cp'.publicPart := by
  intro hp
  have hd : ppe77'.Dims 1 1 := by constructor <;> simp [ppe77']
  have := C106_secret_leaks_second t11_zero t77 t77_projects ppe77' (sim7.on j77 id) rfl rfl sim77_u 0 ⟨5, 1⟩ rfl t11_inj
    (fun j b hj hb => by
      cases j with
      | zero => exact absurd rfl hj
      | succ j => simp [ppe77'] at hb)
    [j77 2] [j77 3] [y] [y'] sch sch' rng rng' (by simp) (by simp) hd (by simp [j77, t77]; rfl) (by simp) (by simp) hd
    (by simp [j77, t77]; rfl) cp cp' s s' hr hr' hp
  simp only [List.getElem?_cons_zero, Option.some.injEq] at this
  exact h this

/-- Both messages are made. -/
example (sch : Nat → Scheduler) (rng : Nat) (y : K) :=
  C106_equation_leaks t11_zero sch ppe77' [j77 2] [y] (sim7.on j77 id) rng (by simp) (by simp) (by constructor <;> simp [ppe77']) rfl rfl

/-- A CRS whose key of the second group has parts of order 11. -/
def dirty77' : CRS K P77 K := { sim7.on id j77 with v := [⟨⟨1, 1⟩, ⟨3, 0⟩⟩, ⟨⟨5, 0⟩, ⟨0, 1⟩⟩] }

example (y y' : K) (rng rng' : Nat) (h : y ≠ y') :
    ∃ r r', Raw.commitG2 (F := K) (j77 y) dirty77' rng = .ok r ∧ Raw.commitG2 (F := K) (j77 y') dirty77' rng' = .ok r' ∧ r.1.coms ≠ r'.1.coms := by
  refine ⟨_, _, rfl, rfl, fun hc => h ?_⟩
  exact congrArg P77.a (C106_crs_leaks_second t11_zero t77 t77_projects dirty77' _ _ [] rfl t11_inj rfl rfl t11_inj _ _ rfl rfl rng rng' _ _ rfl rfl hc).1

/-- Scalars, committed to in either group. -/
example (x x' : K) (rng rng' : Nat) (h : x ≠ x') :
    (∃ r r', Raw.commitScalarToB1 (F := K) x dirty77 rng = .ok r ∧ Raw.commitScalarToB1 (F := K) x' dirty77 rng' = .ok r' ∧ r.1.coms ≠ r'.1.coms) ∧
    ∃ r r', Raw.commitScalarToB2 (F := K) x dirty77' rng = .ok r ∧ Raw.commitScalarToB2 (F := K) x' dirty77' rng' = .ok r' ∧ r.1.coms ≠ r'.1.coms :=
  ⟨⟨_, _, rfl, rfl, fun hc => h ((C106_scalar_leaks t11_zero dirty77 rng rng').1 t77 t77_projects _ _ [] rfl rfl t11_inj _ _ _ _ rfl rfl hc)⟩,
    ⟨_, _, rfl, rfl, fun hc => h ((C106_scalar_leaks t11_zero dirty77' rng rng').2 t77 t77_projects _ _ [] rfl rfl t11_inj _ _ _ _ rfl rfl hc)⟩⟩

end Ex

end GS
