import Verif.Lemmas.Crs
import Verif.Lemmas.Complete
import Verif.Props.Matrices

/-!
# Commitment groups, pairing, linear maps (C30-C33), conversions (C52)
-/

set_option linter.unusedSectionVars false

namespace GS
variable {F G G1 G2 GT : Type} [Field F] [AddCommGroup G] [Module F G] [AddCommGroup G1] [Module F G1]
  [AddCommGroup G2] [Module F G2] [AddCommGroup GT] [Module F GT]

/-! ## C30 -/

/-- `Com1`, `Com2` with `add`, `neg`, `zero` are abelian groups. -/
theorem C30_com_group (a b c : Com G) :
    (a.add b).add c = a.add (b.add c) ∧ a.add b = b.add a ∧ a.add Com.zero = a ∧ Com.zero.add a = a ∧
    a.add a.neg = Com.zero ∧ a.neg.add a = Com.zero ∧ a.neg.neg = a :=
  ⟨add_assoc a b c, add_comm a b, add_zero a, zero_add a, add_neg_cancel a, neg_add_cancel a, neg_neg a⟩

/-- Subtraction is addition of the inverse; the assigning forms agree with the operators. -/
theorem C30_com_ops (a b : Com G) :
    a.sub b = a.add b.neg ∧ a.addAssign b = a.add b ∧ a.subAssign b = a.sub b ∧ (a.sub b).add b = a :=
  ⟨rfl, rfl, rfl, sub_add_cancel a b⟩

/-- `scalar_mul` makes `Com1`, `Com2` vector spaces. -/
theorem C30_com_module (a b : Com G) (r s : F) :
    (a.add b).scalarMul r = (a.scalarMul r).add (b.scalarMul r) ∧
    a.scalarMul (r + s) = (a.scalarMul r).add (a.scalarMul s) ∧
    a.scalarMul (r * s) = (a.scalarMul s).scalarMul r ∧
    a.scalarMul (1 : F) = a ∧ a.scalarMul (0 : F) = Com.zero ∧
    (Com.zero : Com G).scalarMul r = Com.zero ∧ a.neg.scalarMul r = (a.scalarMul r).neg :=
  ⟨smul_add r a b, add_smul r s a, mul_smul r s a, one_smul F a, zero_smul F a, smul_zero r, smul_neg r a⟩

/-- The operations act componentwise. -/
theorem C30_com_components (a b : Com G) (r : F) :
    a.add b = ⟨a.c0 + b.c0, a.c1 + b.c1⟩ ∧ a.neg = ⟨-a.c0, -a.c1⟩ ∧ (Com.zero : Com G) = ⟨0, 0⟩ ∧
    a.scalarMul r = ⟨r • a.c0, r • a.c1⟩ := ⟨rfl, rfl, rfl, rfl⟩

/-- Summing an iterator: independent of the order, additive over concatenation, zero for the empty iterator. -/
theorem C30_com_sum (l l' : List (Com G)) (a : Com G) :
    (l.Perm l' → rustSum l = rustSum l') ∧ rustSum (l ++ l') = (rustSum l).add (rustSum l') ∧
    rustSum ([] : List (Com G)) = Com.zero ∧ rustSum (a :: l) = a.add (rustSum l) := by
  simp only [rustSum_eq_sum]
  exact ⟨fun h => h.sum_eq, List.sum_append, rfl, List.sum_cons⟩

/-- `==` is equality of the components, `is_zero` holds for zero only. -/
theorem C30_com_eq [DecidableEq G] (a b : Com G) :
    (Com.eq a b = true ↔ a.c0 = b.c0 ∧ a.c1 = b.c1) ∧ (Com.eq a b = true ↔ a = b) ∧
    (a.isZero = true ↔ a = Com.zero) :=
  ⟨by simp [Com.eq], Com.eq_iff a b, Com.eq_iff a 0⟩

/-- `ComT` with `add`, `neg`, `zero` is an abelian group. -/
theorem C30_comT_group (a b c : ComT GT) :
    (a.add b).add c = a.add (b.add c) ∧ a.add b = b.add a ∧ a.add ComT.zero = a ∧ ComT.zero.add a = a ∧
    a.add a.neg = ComT.zero ∧ a.neg.add a = ComT.zero ∧ a.neg.neg = a :=
  ⟨add_assoc a b c, add_comm a b, add_zero a, zero_add a, add_neg_cancel a, neg_add_cancel a, neg_neg a⟩

theorem C30_comT_ops (a b : ComT GT) :
    a.sub b = a.add b.neg ∧ a.addAssign b = a.add b ∧ a.subAssign b = a.sub b ∧ (a.sub b).add b = a :=
  ⟨sub_eq_add_neg a b, rfl, rfl, sub_add_cancel a b⟩

theorem C30_comT_components (a b : ComT GT) :
    a.add b = ⟨a.t0 + b.t0, a.t1 + b.t1, a.t2 + b.t2, a.t3 + b.t3⟩ ∧ a.neg = ⟨-a.t0, -a.t1, -a.t2, -a.t3⟩ ∧
    (ComT.zero : ComT GT) = ⟨0, 0, 0, 0⟩ := ⟨rfl, rfl, rfl⟩

theorem C30_comT_sum (l l' : List (ComT GT)) (a : ComT GT) :
    (l.Perm l' → rustSum l = rustSum l') ∧ rustSum (l ++ l') = (rustSum l).add (rustSum l') ∧
    rustSum ([] : List (ComT GT)) = ComT.zero ∧ rustSum (a :: l) = a.add (rustSum l) := by
  simp only [rustSum_eq_sum]
  exact ⟨fun h => h.sum_eq, List.sum_append, rfl, List.sum_cons⟩

theorem C30_comT_eq [DecidableEq GT] (a b : ComT GT) :
    (ComT.eq a b = true ↔ a.t0 = b.t0 ∧ a.t1 = b.t1 ∧ a.t2 = b.t2 ∧ a.t3 = b.t3) ∧
    (ComT.eq a b = true ↔ a = b) ∧ (a.isZero = true ↔ a = ComT.zero) :=
  ⟨by simp [ComT.eq, and_assoc], ComT.eq_iff a b, ComT.eq_iff a 0⟩

/-- Not a trivial group: two different elements. -/
example : Com.eq (⟨1, 2⟩ : Com Ex.K) ⟨1, 3⟩ = false := by decide

/-! ## C31 -/

/-- `ComT::pairing` is additive and homogeneous in both arguments. -/
theorem C31_pairing_bilinear (e : G1 →ₗ[F] G2 →ₗ[F] GT) (a a' : Com G1) (b b' : Com G2) (r : F) :
    ComT.pairing e (a.add a') b = (ComT.pairing e a b).add (ComT.pairing e a' b) ∧
    ComT.pairing e a (b.add b') = (ComT.pairing e a b).add (ComT.pairing e a b') ∧
    ComT.pairing e (a.scalarMul r) b = ComT.pairing e a (b.scalarMul r) ∧
    (ComT.pairing e (a.scalarMul r) b).asMatrix = (ComT.pairing e a b).asMatrix.map (fun row => row.map (r • ·)) ∧
    ComT.pairing e Com.zero b = ComT.zero ∧ ComT.pairing e a Com.zero = ComT.zero := by
  refine ⟨?_, ?_, ?_, ?_, ?_, ?_⟩
  · exact LinearMap.map_add₂ (ComT.pairL e) a a' b
  · exact map_add (ComT.pairL e a) b b'
  · change ComT.pairL e (r • a) b = ComT.pairL e a (r • b)
    rw [map_smul, map_smul, LinearMap.smul_apply]
  · simp [ComT.pairing, ComT.asMatrix, Com.scalarMul]
  · exact LinearMap.map_zero₂ (ComT.pairL e) b
  · exact map_zero (ComT.pairL e a)

/-- The pairing is the matrix of the four pairings of components. -/
theorem C31_pairing_matrix (e : G1 →ₗ[F] G2 →ₗ[F] GT) (a : Com G1) (b : Com G2) :
    (ComT.pairing e a b).asMatrix = a.asVec.map fun x => b.asVec.map fun y => e x y := rfl

/-- Non-degeneracy on both sides. -/
theorem C31_pairing_nondegenerate_left (e : G1 →ₗ[F] G2 →ₗ[F] GT) (he : ∀ x, (∀ y, e x y = 0) → x = 0)
    (a : Com G1) (ha : ∀ b, ComT.pairing e a b = 0) : a = 0 := by
  ext
  · exact he _ fun y => congrArg ComT.t0 (ha ⟨y, 0⟩)
  · exact he _ fun y => congrArg ComT.t2 (ha ⟨y, 0⟩)

theorem C31_pairing_nondegenerate_right (e : G1 →ₗ[F] G2 →ₗ[F] GT) (he : ∀ y, (∀ x, e x y = 0) → y = 0)
    (b : Com G2) (hb : ∀ a, ComT.pairing e a b = 0) : b = 0 := by
  ext
  · exact he _ fun x => congrArg ComT.t0 (hb ⟨x, 0⟩)
  · exact he _ fun x => congrArg ComT.t1 (hb ⟨x, 0⟩)

theorem C31_pairing_sum (e : G1 →ₗ[F] G2 →ₗ[F] GT) (xs : List (Com G1)) (ys : List (Com G2)) :
    (xs.length = ys.length →
      ComT.pairingSum e xs ys = .ok (rustSum (List.zipWith (fun x y => ComT.pairing e x y) xs ys))) ∧
    (xs.length ≠ ys.length → (ComT.pairingSum e xs ys).Panics) := by
  constructor
  · intro h
    rw [ComT.pairingSum_iff, rustSum_eq_sum]
    exact ⟨h, rfl⟩
  · intro h
    rw [panics_iff_not_ok]
    rintro ⟨t, ht⟩
    exact h ((ComT.pairingSum_iff e).mp ht).1

/-- The order of the pairs does not matter. -/
theorem C31_pairing_sum_perm (e : G1 →ₗ[F] G2 →ₗ[F] GT) (ps qs : List (Com G1 × Com G2)) (h : ps.Perm qs) :
    ComT.pairingSum e (ps.map Prod.fst) (ps.map Prod.snd) = ComT.pairingSum e (qs.map Prod.fst) (qs.map Prod.snd) := by
  rw [(C31_pairing_sum e _ _).1 (by simp), (C31_pairing_sum e _ _).1 (by simp)]
  simp only [List.zipWith_map_left, List.zipWith_map_right, List.zipWith_self]
  rw [(C30_comT_sum _ _ 0).1 (h.map _)]

example : (∀ x, (∀ y, Ex.e7 x y = 0) → x = 0) ∧ (∀ y, (∀ x, Ex.e7 x y = 0) → y = 0) :=
  ⟨fun x h => by simpa [Ex.e7_apply] using h 1, fun y h => by simpa [Ex.e7_apply] using h 1⟩

/-! ## C32: the maps commute with the bilinear maps -/

theorem C32_ppe (e : G1 →ₗ[F] G2 →ₗ[F] GT) (x : G1) (y : G2) :
    ComT.pairing e (Com1.linearMap x) (Com2.linearMap y) = ComT.linearMapPPE (e x y) := by
  simp [ComT.pairing, Com1.linearMap, Com2.linearMap, ComT.linearMapPPE]

theorem C32_msmeg1 (e : G1 →ₗ[F] G2 →ₗ[F] GT) (key : CRS G1 G2 GT) (hv : 2 ≤ key.v.length) (x : G1) (y : F) :
    ∃ c, Com2.scalarLinearMap y key = .ok c ∧
      ComT.linearMapMSMEG1 e (y • x) key = .ok (ComT.pairing e (Com1.linearMap x) c) := by
  have hw : key.v[1]? = some key.v[1] := List.getElem?_eq_getElem (by omega)
  refine ⟨_, scalarLinearMap2_iff.mpr ⟨_, hw, rfl⟩, ?_⟩
  simp only [ComT.linearMapMSMEG1, scalarLinearMap2_iff.mpr ⟨_, hw, rfl⟩, ok_bind, pure_eq_ok, one_smul]
  congr 1
  change ComT.pairL e (i1 (F := F) (y • x)) _ = ComT.pairL e (i1 (F := F) x) _
  rw [map_smul, map_smul, map_smul, LinearMap.smul_apply]

theorem C32_msmeg2 (e : G1 →ₗ[F] G2 →ₗ[F] GT) (key : CRS G1 G2 GT) (hu : 2 ≤ key.u.length) (x : F) (y : G2) :
    ∃ c, Com1.scalarLinearMap x key = .ok c ∧
      ComT.linearMapMSMEG2 e (x • y) key = .ok (ComT.pairing e c (Com2.linearMap y)) := by
  have hw : key.u[1]? = some key.u[1] := List.getElem?_eq_getElem (by omega)
  refine ⟨_, scalarLinearMap1_iff.mpr ⟨_, hw, rfl⟩, ?_⟩
  simp only [ComT.linearMapMSMEG2, scalarLinearMap1_iff.mpr ⟨_, hw, rfl⟩, ok_bind, pure_eq_ok, one_smul]
  congr 1
  change ComT.pairL e _ (i2 (F := F) (x • y)) = ComT.pairL e _ (i2 (F := F) y)
  rw [map_smul, map_smul, map_smul, LinearMap.smul_apply]

theorem C32_quad (e : G1 →ₗ[F] G2 →ₗ[F] GT) (key : CRS G1 G2 GT) (hu : 2 ≤ key.u.length) (hv : 2 ≤ key.v.length)
    (x y : F) :
    ∃ c d, Com1.scalarLinearMap x key = .ok c ∧ Com2.scalarLinearMap y key = .ok d ∧
      ComT.linearMapQuad e (x * y) key = .ok (ComT.pairing e c d) := by
  have hw : key.u[1]? = some key.u[1] := List.getElem?_eq_getElem (by omega)
  have hw' : key.v[1]? = some key.v[1] := List.getElem?_eq_getElem (by omega)
  refine ⟨_, _, scalarLinearMap1_iff.mpr ⟨_, hw, rfl⟩, scalarLinearMap2_iff.mpr ⟨_, hw', rfl⟩, ?_⟩
  simp only [ComT.linearMapQuad, scalarLinearMap1_iff.mpr ⟨_, hw, rfl⟩, scalarLinearMap2_iff.mpr ⟨_, hw', rfl⟩, ok_bind,
    pure_eq_ok, one_smul, Com.scalarMul_eq]
  congr 1
  change ComT.pairL e _ _ = ComT.pairL e _ _
  rw [map_smul, map_smul, map_smul, LinearMap.smul_apply, mul_comm, mul_smul]

example : 2 ≤ Ex.crs7.u.length ∧ 2 ≤ Ex.crs7.v.length := by decide

/-! ## C33: injective homomorphisms

A map is an (injective) homomorphism of vector spaces over `F` when it is the function underlying a linear
map; the vector space structure of `Com` and `ComT` is the componentwise one of `C30`. -/

theorem C33_linear_map_B1 :
    ∃ f : G1 →ₗ[F] Com G1, Function.Injective f ∧ ∀ x, Com1.linearMap x = f x :=
  ⟨i1, fun x y h => congrArg Com.c1 h, fun _ => rfl⟩

theorem C33_linear_map_B2 :
    ∃ f : G2 →ₗ[F] Com G2, Function.Injective f ∧ ∀ x, Com2.linearMap x = f x :=
  ⟨i2, fun x y h => congrArg Com.c1 h, fun _ => rfl⟩

theorem C33_linear_map_PPE :
    ∃ f : GT →ₗ[F] ComT GT, Function.Injective f ∧ ∀ z, ComT.linearMapPPE z = f z :=
  ⟨tPPE, fun x y h => congrArg ComT.t3 h, fun _ => rfl⟩

/-- For any key of sufficient length the remaining maps are homomorphisms. -/
theorem C33_scalar_maps_hom (e : G1 →ₗ[F] G2 →ₗ[F] GT) (key : CRS G1 G2 GT) :
    (2 ≤ key.u.length → ∃ f : F →ₗ[F] Com G1, ∀ x, Com1.scalarLinearMap x key = .ok (f x)) ∧
    (2 ≤ key.v.length → ∃ f : F →ₗ[F] Com G2, ∀ x, Com2.scalarLinearMap x key = .ok (f x)) ∧
    (2 ≤ key.v.length → ∃ f : G1 →ₗ[F] ComT GT, ∀ z, ComT.linearMapMSMEG1 e z key = .ok (f z)) ∧
    (2 ≤ key.u.length → ∃ f : G2 →ₗ[F] ComT GT, ∀ z, ComT.linearMapMSMEG2 e z key = .ok (f z)) ∧
    (2 ≤ key.u.length → 2 ≤ key.v.length →
      ∃ f : F →ₗ[F] ComT GT, ∀ z, ComT.linearMapQuad e z key = .ok (f z)) := by
  refine ⟨fun h => ⟨LinearMap.toSpanSingleton F _ (key.u[1] + Com1.linearMap key.g1_gen), fun x => ?_⟩,
    fun h => ⟨LinearMap.toSpanSingleton F _ (key.v[1] + Com2.linearMap key.g2_gen), fun x => ?_⟩,
    fun h => ⟨tMSMEG1 e (key.v[1] + Com2.linearMap key.g2_gen), fun x => ?_⟩,
    fun h => ⟨tMSMEG2 e (key.u[1] + Com1.linearMap key.g1_gen), fun x => ?_⟩,
    fun h h' => ⟨tQuad e (key.u[1] + Com1.linearMap key.g1_gen) (key.v[1] + Com2.linearMap key.g2_gen), fun x => ?_⟩⟩
  · exact scalarLinearMap1_iff.mpr ⟨_, List.getElem?_eq_getElem _, rfl⟩
  · exact scalarLinearMap2_iff.mpr ⟨_, List.getElem?_eq_getElem _, rfl⟩
  · exact linearMapMSMEG1_iff.mpr ⟨_, List.getElem?_eq_getElem _, rfl⟩
  · exact linearMapMSMEG2_iff.mpr ⟨_, List.getElem?_eq_getElem _, rfl⟩
  · exact linearMapQuad_iff.mpr ⟨_, _, List.getElem?_eq_getElem _, List.getElem?_eq_getElem _, rfl⟩

theorem smul_sub_zero {M : Type} [AddCommGroup M] [Module F M] {r s : F} (hne : ¬ r = s) {w : M}
    (h : r • w = s • w) : w = 0 := by
  rw [← sub_eq_zero, ← sub_smul] at h
  exact (smul_eq_zero.mp h).resolve_left (sub_ne_zero.mpr hne)

/-- For a generated CRS with nonzero generators they are injective. -/
theorem C33_scalar_maps_injective (e : G1 →ₗ[F] G2 →ₗ[F] GT) (he : PrimeGroups e) (key : CRS G1 G2 GT)
    (hg : GeneratedCrs e key) (hnz : key.NonzeroGens) :
    (∀ x x' : F, Com1.scalarLinearMap x key = Com1.scalarLinearMap x' key → x = x') ∧
    (∀ y y' : F, Com2.scalarLinearMap y key = Com2.scalarLinearMap y' key → y = y') ∧
    (∀ z z' : G1, ComT.linearMapMSMEG1 e z key = ComT.linearMapMSMEG1 e z' key → z = z') ∧
    (∀ z z' : G2, ComT.linearMapMSMEG2 e z key = ComT.linearMapMSMEG2 e z' key → z = z') ∧
    (∀ z z' : F, ComT.linearMapQuad e z key = ComT.linearMapQuad e z' key → z = z') := by
  obtain ⟨a1, t1, a2, t2, hb⟩ := hg.binding
  have hu : key.u[1]? = some ⟨t1 • key.g1_gen, t1 • a1 • key.g1_gen⟩ := by rw [hb.u]; rfl
  have hv : key.v[1]? = some ⟨t2 • key.g2_gen, t2 • a2 • key.g2_gen⟩ := by rw [hb.v]; rfl
  refine ⟨fun x x' h => ?_, fun x x' h => ?_, fun z z' h => ?_, fun z z' h => ?_, fun z z' h => ?_⟩
  · rw [scalarLinearMap1_iff.mpr ⟨_, hu, rfl⟩, scalarLinearMap1_iff.mpr ⟨_, hu, rfl⟩, Except.ok.injEq] at h
    by_contra hne
    have hz := (smul_sub_zero hne h)
    have h0 : t1 • key.g1_gen + 0 = 0 := congrArg Com.c0 hz
    have h1 : t1 • a1 • key.g1_gen + key.g1_gen = 0 := congrArg Com.c1 hz
    rw [add_zero] at h0
    rw [smul_comm, h0, smul_zero, zero_add] at h1
    exact hnz.1 h1
  · rw [scalarLinearMap2_iff.mpr ⟨_, hv, rfl⟩, scalarLinearMap2_iff.mpr ⟨_, hv, rfl⟩, Except.ok.injEq] at h
    by_contra hne
    have hz := (smul_sub_zero hne h)
    have h0 : t2 • key.g2_gen + 0 = 0 := congrArg Com.c0 hz
    have h1 : t2 • a2 • key.g2_gen + key.g2_gen = 0 := congrArg Com.c1 hz
    rw [add_zero] at h0
    rw [smul_comm, h0, smul_zero, zero_add] at h1
    exact hnz.2 h1
  · rw [linearMapMSMEG1_iff.mpr ⟨_, hv, rfl⟩, linearMapMSMEG1_iff.mpr ⟨_, hv, rfl⟩, Except.ok.injEq] at h
    exact tMSMEG1_inj he hnz.2 _ _ h
  · rw [linearMapMSMEG2_iff.mpr ⟨_, hu, rfl⟩, linearMapMSMEG2_iff.mpr ⟨_, hu, rfl⟩, Except.ok.injEq] at h
    exact tMSMEG2_inj he hnz.1 _ _ h
  · rw [linearMapQuad_iff.mpr ⟨_, _, hu, hv, rfl⟩, linearMapQuad_iff.mpr ⟨_, _, hu, hv, rfl⟩,
      Except.ok.injEq] at h
    exact tQuad_inj he hnz.1 hnz.2 _ _ _ _ h

/-- The batch maps apply the single maps entrywise. -/
theorem C33_batch_maps (key : CRS G1 G2 GT) (xs : List G1) (ys : List G2) (ss : List F) :
    Com1.batchLinearMap xs = xs.map Com1.linearMap ∧ Com2.batchLinearMap ys = ys.map Com2.linearMap ∧
    (∀ cs, Com1.batchScalarLinearMap ss key = .ok cs ↔
      List.Forall₂ (fun s c => Com1.scalarLinearMap s key = .ok c) ss cs) ∧
    (∀ cs, Com2.batchScalarLinearMap ss key = .ok cs ↔
      List.Forall₂ (fun s c => Com2.scalarLinearMap s key = .ok c) ss cs) :=
  ⟨rfl, rfl, fun _ => collect_ok_iff, fun _ => collect_ok_iff⟩

/-- The scalar maps panic exactly on keys with fewer than two elements. -/
theorem C33_scalar_maps_panic (key : CRS G1 G2 GT) (x : F) :
    ((Com1.scalarLinearMap x key).Panics ↔ key.u.length < 2) ∧
    ((Com2.scalarLinearMap x key).Panics ↔ key.v.length < 2) := by
  simp only [panics_iff_not_ok, Com1.scalarLinearMap, Com2.scalarLinearMap, bind_isOk_iff, pure_eq_ok, ok_ok, and_true]
  constructor
  · rw [← Res.Ok, idx_ok_iff]; omega
  · rw [← Res.Ok, idx_ok_iff]; omega

example : PrimeGroups Ex.e7 ∧ GeneratedCrs Ex.e7 Ex.crs7 ∧ Ex.crs7.NonzeroGens :=
  ⟨Ex.prime7, Ex.crs7_generated, Ex.crs7_nonzero⟩

/-! ## C52: conversions -/

theorem C52_com_round_trip (a : Com G) : Com.fromMatrix a.asColVec = .ok a ∧ a.asColVec = vecToColVec a.asVec :=
  ⟨rfl, rfl⟩

theorem C52_com_from_matrix (M : Matrix G) (a : Com G) : Com.fromMatrix M = .ok a ↔ M = a.asColVec := by
  constructor
  · intro h
    simp only [Com.fromMatrix, bind_ok_iff, assertEq_ok_iff, idx_eq_ok, idx2_eq_ok, pure_eq_ok, Except.ok.injEq] at h
    obtain ⟨-, hl, r0, hr0, -, hl0, r1, hr1, -, hl1, x, ⟨_, h3, h4⟩, y, ⟨_, h5, h6⟩, rfl⟩ := h
    match M, hl with
    | [s0, s1], _ =>
      simp only [List.getElem?_cons_zero, Option.some.injEq, List.getElem?_cons_succ] at hr0 hr1 h3 h5
      subst hr0 hr1 h3 h5
      match s0, hl0, s1, hl1 with
      | [a0], _, [a1], _ =>
        simp only [List.getElem?_cons_zero, Option.some.injEq] at h4 h6
        subst h4 h6
        rfl
  · rintro rfl; rfl

theorem C52_com_panics (M : Matrix G) : (Com.fromMatrix M).Panics ↔ ¬ Rect 2 1 M := by
  rw [panics_iff_not_ok]
  refine not_congr ⟨?_, ?_⟩
  · rintro ⟨a, h⟩
    rw [C52_com_from_matrix] at h
    subst h
    exact ⟨rfl, by simp [Com.asColVec]⟩
  · intro h
    obtain ⟨A, rfl⟩ := rect_iff.mp h
    exact ⟨⟨A 0 0, A 1 0⟩, (C52_com_from_matrix _ _).mpr (by simp [matOf, Com.asColVec])⟩

theorem C52_comT_round_trip (a : ComT GT) : ComT.fromMatrix a.asMatrix = .ok a := rfl

theorem C52_comT_from_matrix (M : Matrix GT) (a : ComT GT) : ComT.fromMatrix M = .ok a ↔ M = a.asMatrix := by
  constructor
  · intro h
    simp only [ComT.fromMatrix, bind_ok_iff, assertEq_ok_iff, idx_eq_ok, idx2_eq_ok, pure_eq_ok, Except.ok.injEq] at h
    obtain ⟨-, hl, r0, hr0, -, hl0, r1, hr1, -, hl1, x, ⟨_, h3, h4⟩, y, ⟨_, h5, h6⟩, z, ⟨_, h7, h8⟩, w, ⟨_, h9, h10⟩, rfl⟩ := h
    match M, hl with
    | [s0, s1], _ =>
      simp only [List.getElem?_cons_zero, Option.some.injEq, List.getElem?_cons_succ] at hr0 hr1 h3 h5 h7 h9
      subst hr0 hr1 h3 h5 h7 h9
      match s0, hl0, s1, hl1 with
      | [a0, b0], _, [a1, b1], _ =>
        simp only [List.getElem?_cons_zero, Option.some.injEq, List.getElem?_cons_succ] at h4 h6 h8 h10
        subst h4 h6 h8 h10
        rfl
  · rintro rfl; rfl

theorem C52_comT_panics (M : Matrix GT) : (ComT.fromMatrix M).Panics ↔ ¬ Rect 2 2 M := by
  rw [panics_iff_not_ok]
  refine not_congr ⟨?_, ?_⟩
  · rintro ⟨a, h⟩
    rw [C52_comT_from_matrix] at h
    subst h
    exact ⟨rfl, by simp [ComT.asMatrix]⟩
  · intro h
    obtain ⟨A, rfl⟩ := rect_iff.mp h
    exact ⟨⟨A 0 0, A 0 1, A 1 0, A 1 1⟩, (C52_comT_from_matrix _ _).mpr (by simp [matOf, ComT.asMatrix])⟩

/-- Matrices of the right and of a wrong shape. -/
example : Com.fromMatrix [[(1 : Ex.K)], [2]] = .ok ⟨1, 2⟩ := by decide
example : (Com.fromMatrix [[(1 : Ex.K), 2]]).Panics := (C52_com_panics _).mpr (by simp [Rect])

/-! ### Instances -/

namespace Ex

example := C31_pairing_nondegenerate_left e7 (fun x h => by simpa [e7_apply] using h 1) 0 fun _ => by ext <;> simp [ComT.pairing]
example := C31_pairing_nondegenerate_right e7 (fun y h => by simpa [e7_apply] using h 1) 0 fun _ => by ext <;> simp [ComT.pairing]
example := C31_pairing_sum_perm e7 [(⟨1, 2⟩, ⟨3, 4⟩), (⟨5, 6⟩, ⟨0, 1⟩)] [(⟨5, 6⟩, ⟨0, 1⟩), (⟨1, 2⟩, ⟨3, 4⟩)] (List.Perm.swap _ _ _)
example := C32_msmeg1 e7 crs7 (by decide) 2 3
example := C32_msmeg2 e7 crs7 (by decide) 2 3
example := C32_quad e7 crs7 (by decide) (by decide) 2 3
example := C33_scalar_maps_injective e7 prime7 crs7 crs7_generated crs7_nonzero

end Ex

end GS
