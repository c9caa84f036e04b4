import Verif.Spec.Transport
import Verif.Props.Convert
import Verif.Props.Example
import Verif.Props.Verification
import Verif.Lemmas.Cap
import Mathlib.LinearAlgebra.BilinearMap

/-!
# C88: the groups are used as black boxes

The images of data under homomorphisms of bilinear groups, and `ImageOf`, are in `Verif/Spec/Transport.lean`.
-/

set_option linter.unusedSectionVars false
set_option linter.unusedSimpArgs false

namespace GS
variable {F G G' G1 G2 GT G1' G2' GT' : Type} [Field F]
  [AddCommGroup G] [Module F G] [AddCommGroup G'] [Module F G']
  [AddCommGroup G1] [Module F G1] [AddCommGroup G2] [Module F G2] [AddCommGroup GT] [Module F GT]
  [AddCommGroup G1'] [Module F G1'] [AddCommGroup G2'] [Module F G2'] [AddCommGroup GT'] [Module F GT']
  {e : G1 →ₗ[F] G2 →ₗ[F] GT} {e' : G1' →ₗ[F] G2' →ₗ[F] GT'} {f1 : G1 →ₗ[F] G1'} {f2 : G2 →ₗ[F] G2'} {fT : GT →ₗ[F] GT'}

/-! ### Images -/

section image
variable {α β α' β' : Type}

theorem imageOf_of {φ : α → β} {x : Res α} {y : Res β} (h : ∀ a, x = .ok a → y = .ok (φ a)) (hok : y.Ok → x.Ok) :
    ImageOf φ x y := by
  refine ⟨fun b => ⟨fun hb => ?_, ?_⟩, ?_⟩
  · obtain ⟨a, ha⟩ := hok ⟨b, hb⟩
    exact ⟨a, ha, Except.ok.inj ((h a ha).symm.trans hb)⟩
  · rintro ⟨a, ha, rfl⟩
    exact h a ha
  · rw [panics_iff_not_ok, panics_iff_not_ok]
    refine not_congr ⟨hok, ?_⟩
    rintro ⟨a, ha⟩
    exact ⟨_, h a ha⟩

theorem imageOf_bind {φ : α → β} {ψ : α' → β'} {x : Res α} {y : Res β} {f : α → Res α'} {g : β → Res β'}
    (h : ImageOf φ x y) (hf : ∀ a, ImageOf ψ (f a) (g (φ a))) : ImageOf ψ (x >>= f) (y >>= g) := by
  refine imageOf_of (fun c hc => ?_) ?_
  · rw [bind_ok_iff] at hc ⊢
    obtain ⟨a, ha, hc⟩ := hc
    exact ⟨φ a, (h.1 _).mpr ⟨a, ha, rfl⟩, ((hf a).1 _).mpr ⟨c, hc, rfl⟩⟩
  · rintro ⟨d, hd⟩
    rw [bind_ok_iff] at hd
    obtain ⟨b, hb, hd⟩ := hd
    obtain ⟨a, ha, rfl⟩ := (h.1 _).mp hb
    obtain ⟨c, hc, -⟩ := ((hf a).1 _).mp hd
    exact ⟨c, bind_ok_iff.mpr ⟨a, ha, hc⟩⟩

end image

/-! ### Linear maps on commitments -/

/-- `Com.via` as a linear map. -/
def comHom (f : G →ₗ[F] G') : Com G →ₗ[F] Com G' where
  toFun := Com.via f
  map_add' x y := by ext <;> simp [Com.via]
  map_smul' r x := by ext <;> simp [Com.via]

/-- `ComT.via` as a linear map. -/
def comTHom (f : GT →ₗ[F] GT') : ComT GT →ₗ[F] ComT GT' where
  toFun := ComT.via f
  map_add' x y := by ext <;> simp [ComT.via]
  map_smul' r x := by ext <;> simp [ComT.via]

theorem comHom_eq (f : G →ₗ[F] G') (c : Com G) : comHom f c = c.via f := rfl
theorem via_fun (f : G →ₗ[F] G') : Com.via f = comHom f := rfl

theorem via_linearMap1 (x : G1) : comHom f1 (Com1.linearMap x) = Com1.linearMap (f1 x) := by
  ext <;> simp [comHom, Com.via, Com1.linearMap]
theorem via_linearMap2 (x : G2) : comHom f2 (Com2.linearMap x) = Com2.linearMap (f2 x) := by
  ext <;> simp [comHom, Com.via, Com2.linearMap]
theorem via_i1 (x : G1) : comHom f1 (i1 (F := F) x) = i1 (F := F) (f1 x) := via_linearMap1 x
theorem via_i2 (x : G2) : comHom f2 (i2 (F := F) x) = i2 (F := F) (f2 x) := via_linearMap2 x
theorem via_emb (f : G →ₗ[F] G') (x : G) : comHom f (emb x) = emb (f x) := by
  ext <;> simp [comHom, Com.via, emb]

theorem via_piVal {m n p q : Nat} {B B' : Type} [AddCommGroup B] [Module F B] [AddCommGroup B'] [Module F B'] (f : B →ₗ[F] B')
    (b : Fin m → B) (y : Fin n → B) (γ : Fin m → Fin n → F) (R : Fin m → Fin p → F)
    (S : Fin n → Fin q → F) (T : Fin q → Fin p → F) (v : Fin q → B) :
    (f ∘ piVal b y γ R S T v) = piVal (f ∘ b) (f ∘ y) γ R S T (f ∘ v) := by
  funext k
  simp only [Function.comp_apply, piVal, map_add, map_sum, map_smul]

theorem via_thetaVal {m n p q : Nat} {A A' : Type} [AddCommGroup A] [Module F A] [AddCommGroup A'] [Module F A'] (f : A →ₗ[F] A')
    (a : Fin n → A) (x : Fin m → A) (γ : Fin m → Fin n → F)
    (S : Fin n → Fin q → F) (T : Fin q → Fin p → F) (u : Fin p → A) :
    (f ∘ thetaVal a x γ S T u) = thetaVal (f ∘ a) (f ∘ x) γ S T (f ∘ u) := by
  funext k
  simp only [Function.comp_apply, thetaVal, map_add, map_sum, map_smul]

theorem comp_vec1 {A B : Type} (f : A → B) (a : A) : f ∘ ![a] = ![f a] := by
  funext i; fin_cases i; rfl
theorem comp_vec2 {A B : Type} (f : A → B) (a b : A) : f ∘ ![a, b] = ![f a, f b] := by
  funext i; fin_cases i <;> rfl

theorem length_two_via {α : Type} {l : List α} (h : l.length = 2) : ∃ a b, l = [a, b] := List.length_eq_two.mp h

/-! ### Generation and commitments -/

section rng
variable {ρ : Type} [Rng ρ F G1 G2] [Rng ρ F G1' G2']

/-- C88, `generate_crs`: the CRS is the image, and the generator ends in the same state. -/
theorem C88_generate (he : PairingHom e e' f1 f2 fT) (hr : RngHom (ρ := ρ) f1 f2) (rng : ρ) :
    generateCrs e' rng = ((generateCrs e rng).1.via f1 f2 fT, (generateCrs e rng).2) := by
  simp only [generateCrs, hr.left, hr.right, hr.scalar, assembleCrs, prepareRealBindingKey, CRS.via, List.map_cons,
    List.map_nil, Com.via, map_smul, he _ _, map_sub, map_zero]

theorem RngHom.scalar' (hr : RngHom (ρ := ρ) f1 f2) :
    Rng.randF (ρ := ρ) (F := F) G1' G2' = Rng.randF (F := F) G1 G2 := funext hr.scalar

/-- C88, `commit_G1`. -/
theorem C88_commit_G1 (hr : RngHom (ρ := ρ) f1 f2) (x : G1) (crs : CRS G1 G2 GT) (rng : ρ) :
    ImageOf (Prod.map (Commit.via f1) id) (commitG1 x crs rng) (commitG1 (f1 x) (crs.via f1 f2 fT) rng) := by
  refine imageOf_of (fun r h => ?_) ?_
  · rw [commitG1_iff] at h ⊢
    obtain ⟨u0, u1, u', hu, rfl⟩ := h
    refine ⟨u0.via f1, u1.via f1, u'.map (Com.via f1), by simp only [CRS.via, hu, List.map_cons], ?_⟩
    simp only [Prod.map_apply, Commit.via, List.map_cons, List.map_nil, via_fun, map_add, map_smul, via_linearMap1, hr.scalar,
      CRS.via, id]
  · rintro ⟨r, h⟩
    rw [commitG1_iff] at h
    obtain ⟨u0, u1, u', hu, -⟩ := h
    obtain ⟨w0, w1, w', hw⟩ := cons2_of_length (l := crs.u) (by
      have := congrArg List.length hu
      simp only [CRS.via, List.length_map, List.length_cons] at this
      omega)
    exact ⟨_, commitG1_iff.mpr ⟨w0, w1, w', hw, rfl⟩⟩

/-- C88, `commit_scalar_to_B1`. -/
theorem C88_commit_scalar_B1 (hr : RngHom (ρ := ρ) f1 f2) (x : F) (crs : CRS G1 G2 GT) (rng : ρ) :
    ImageOf (Prod.map (Commit.via f1) id) (commitScalarToB1 x crs rng) (commitScalarToB1 (x) (crs.via f1 f2 fT) rng) := by
  refine imageOf_of (fun r h => ?_) ?_
  · rw [commitScalarToB1_iff] at h ⊢
    obtain ⟨u0, u1, u', hu, rfl⟩ := h
    refine ⟨u0.via f1, u1.via f1, u'.map (Com.via f1), by simp only [CRS.via, hu, List.map_cons], ?_⟩
    simp only [Prod.map_apply, Commit.via, List.map_cons, List.map_nil, via_fun, map_add, map_smul, via_linearMap1, hr.scalar,
      CRS.via, id]
  · rintro ⟨r, h⟩
    rw [commitScalarToB1_iff] at h
    obtain ⟨u0, u1, u', hu, -⟩ := h
    obtain ⟨w0, w1, w', hw⟩ := cons2_of_length (l := crs.u) (by
      have := congrArg List.length hu
      simp only [CRS.via, List.length_map, List.length_cons] at this
      omega)
    exact ⟨_, commitScalarToB1_iff.mpr ⟨w0, w1, w', hw, rfl⟩⟩

/-- C88, `batch_commit_G1`. -/
theorem C88_batch_commit_G1 (hr : RngHom (ρ := ρ) f1 f2) (x : List G1) (crs : CRS G1 G2 GT) (rng : ρ) :
    ImageOf (Prod.map (Commit.via f1) id) (batchCommitG1 x crs rng) (batchCommitG1 (x.map f1) (crs.via f1 f2 fT) rng) := by
  refine imageOf_of (fun r h => ?_) ?_
  · rw [batchCommitG1_iff] at h ⊢
    obtain ⟨hne, u0, u1, hu, rfl⟩ := h
    refine ⟨by simpa using hne, u0.via f1, u1.via f1, by simp only [CRS.via, hu, List.map_cons, List.map_nil], ?_⟩
    simp only [Prod.map_apply, Commit.via, List.map_zipWith, List.zipWith_map_left, List.length_map, via_fun, map_add, map_smul,
      via_linearMap1, hr.scalar', id]
  · rintro ⟨r, h⟩
    rw [batchCommitG1_iff] at h
    obtain ⟨hne, u0, u1, hu, -⟩ := h
    obtain ⟨w0, w1, hw⟩ := length_two_via (l := crs.u) (by
      have := congrArg List.length hu
      simpa only [CRS.via, List.length_map, List.length_cons, List.length_nil] using this)
    exact ⟨_, batchCommitG1_iff.mpr ⟨by simpa using hne, w0, w1, hw, rfl⟩⟩

/-- C88, `batch_commit_scalar_to_B1`. -/
theorem C88_batch_commit_scalar_B1 (hr : RngHom (ρ := ρ) f1 f2) (x : List F) (crs : CRS G1 G2 GT) (rng : ρ) :
    ImageOf (Prod.map (Commit.via f1) id) (batchCommitScalarToB1 x crs rng) (batchCommitScalarToB1 (x) (crs.via f1 f2 fT) rng) := by
  refine imageOf_of (fun r h => ?_) ?_
  · rw [batchCommitScalarToB1_iff] at h ⊢
    obtain ⟨hne, u0, u1, u', hu, rfl⟩ := h
    refine ⟨hne, u0.via f1, u1.via f1, u'.map (Com.via f1), by simp only [CRS.via, hu, List.map_cons], ?_⟩
    simp only [Prod.map_apply, Commit.via, List.map_zipWith, via_fun, map_add, map_smul, via_linearMap1, hr.scalar',
      CRS.via, id]
  · rintro ⟨r, h⟩
    rw [batchCommitScalarToB1_iff] at h
    obtain ⟨hne, u0, u1, u', hu, -⟩ := h
    obtain ⟨w0, w1, w', hw⟩ := cons2_of_length (l := crs.u) (by
      have := congrArg List.length hu
      simp only [CRS.via, List.length_map, List.length_cons] at this
      omega)
    exact ⟨_, batchCommitScalarToB1_iff.mpr ⟨hne, w0, w1, w', hw, rfl⟩⟩

/-- C88, `commit_G2`. -/
theorem C88_commit_G2 (hr : RngHom (ρ := ρ) f1 f2) (x : G2) (crs : CRS G1 G2 GT) (rng : ρ) :
    ImageOf (Prod.map (Commit.via f2) id) (commitG2 x crs rng) (commitG2 (f2 x) (crs.via f1 f2 fT) rng) := by
  refine imageOf_of (fun r h => ?_) ?_
  · rw [commitG2_iff] at h ⊢
    obtain ⟨u0, u1, u', hu, rfl⟩ := h
    refine ⟨u0.via f2, u1.via f2, u'.map (Com.via f2), by simp only [CRS.via, hu, List.map_cons], ?_⟩
    simp only [Prod.map_apply, Commit.via, List.map_cons, List.map_nil, via_fun, map_add, map_smul, via_linearMap2, hr.scalar,
      CRS.via, id]
  · rintro ⟨r, h⟩
    rw [commitG2_iff] at h
    obtain ⟨u0, u1, u', hu, -⟩ := h
    obtain ⟨w0, w1, w', hw⟩ := cons2_of_length (l := crs.v) (by
      have := congrArg List.length hu
      simp only [CRS.via, List.length_map, List.length_cons] at this
      omega)
    exact ⟨_, commitG2_iff.mpr ⟨w0, w1, w', hw, rfl⟩⟩

/-- C88, `commit_scalar_to_B2`. -/
theorem C88_commit_scalar_B2 (hr : RngHom (ρ := ρ) f1 f2) (x : F) (crs : CRS G1 G2 GT) (rng : ρ) :
    ImageOf (Prod.map (Commit.via f2) id) (commitScalarToB2 x crs rng) (commitScalarToB2 (x) (crs.via f1 f2 fT) rng) := by
  refine imageOf_of (fun r h => ?_) ?_
  · rw [commitScalarToB2_iff] at h ⊢
    obtain ⟨u0, u1, u', hu, rfl⟩ := h
    refine ⟨u0.via f2, u1.via f2, u'.map (Com.via f2), by simp only [CRS.via, hu, List.map_cons], ?_⟩
    simp only [Prod.map_apply, Commit.via, List.map_cons, List.map_nil, via_fun, map_add, map_smul, via_linearMap2, hr.scalar,
      CRS.via, id]
  · rintro ⟨r, h⟩
    rw [commitScalarToB2_iff] at h
    obtain ⟨u0, u1, u', hu, -⟩ := h
    obtain ⟨w0, w1, w', hw⟩ := cons2_of_length (l := crs.v) (by
      have := congrArg List.length hu
      simp only [CRS.via, List.length_map, List.length_cons] at this
      omega)
    exact ⟨_, commitScalarToB2_iff.mpr ⟨w0, w1, w', hw, rfl⟩⟩

/-- C88, `batch_commit_G2`. -/
theorem C88_batch_commit_G2 (hr : RngHom (ρ := ρ) f1 f2) (x : List G2) (crs : CRS G1 G2 GT) (rng : ρ) :
    ImageOf (Prod.map (Commit.via f2) id) (batchCommitG2 x crs rng) (batchCommitG2 (x.map f2) (crs.via f1 f2 fT) rng) := by
  refine imageOf_of (fun r h => ?_) ?_
  · rw [batchCommitG2_iff] at h ⊢
    obtain ⟨hne, u0, u1, hu, rfl⟩ := h
    refine ⟨by simpa using hne, u0.via f2, u1.via f2, by simp only [CRS.via, hu, List.map_cons, List.map_nil], ?_⟩
    simp only [Prod.map_apply, Commit.via, List.map_zipWith, List.zipWith_map_left, List.length_map, via_fun, map_add, map_smul,
      via_linearMap2, hr.scalar', id]
  · rintro ⟨r, h⟩
    rw [batchCommitG2_iff] at h
    obtain ⟨hne, u0, u1, hu, -⟩ := h
    obtain ⟨w0, w1, hw⟩ := length_two_via (l := crs.v) (by
      have := congrArg List.length hu
      simpa only [CRS.via, List.length_map, List.length_cons, List.length_nil] using this)
    exact ⟨_, batchCommitG2_iff.mpr ⟨by simpa using hne, w0, w1, hw, rfl⟩⟩

/-- C88, `batch_commit_scalar_to_B2`. -/
theorem C88_batch_commit_scalar_B2 (hr : RngHom (ρ := ρ) f1 f2) (x : List F) (crs : CRS G1 G2 GT) (rng : ρ) :
    ImageOf (Prod.map (Commit.via f2) id) (batchCommitScalarToB2 x crs rng) (batchCommitScalarToB2 (x) (crs.via f1 f2 fT) rng) := by
  refine imageOf_of (fun r h => ?_) ?_
  · rw [batchCommitScalarToB2_iff] at h ⊢
    obtain ⟨hne, u0, u1, u', hu, rfl⟩ := h
    refine ⟨hne, u0.via f2, u1.via f2, u'.map (Com.via f2), by simp only [CRS.via, hu, List.map_cons], ?_⟩
    simp only [Prod.map_apply, Commit.via, List.map_zipWith, via_fun, map_add, map_smul, via_linearMap2, hr.scalar',
      CRS.via, id]
  · rintro ⟨r, h⟩
    rw [batchCommitScalarToB2_iff] at h
    obtain ⟨hne, u0, u1, u', hu, -⟩ := h
    obtain ⟨w0, w1, w', hw⟩ := cons2_of_length (l := crs.v) (by
      have := congrArg List.length hu
      simp only [CRS.via, List.length_map, List.length_cons] at this
      omega)
    exact ⟨_, batchCommitScalarToB2_iff.mpr ⟨hne, w0, w1, w', hw, rfl⟩⟩

/-! ### Proofs -/

section prove
variable {sch sch' : Nat → Scheduler}

/-- C88, PPE: `prove`. -/
theorem C88_ppe_prove (hr : RngHom (ρ := ρ) f1 f2) (equ : PPE F G1 G2 GT) (x : List G1) (y : List G2) (xc : Commit F G1)
    (yc : Commit F G2) (crs : CRS G1 G2 GT) (rng : ρ) :
    ImageOf (Prod.map (EquProof.via f1 f2) id) (equ.prove sch x y xc yc crs rng)
      ((equ.via f1 f2 fT).prove sch' (x.map f1) (y.map f2) (xc.via f1) (yc.via f2) (crs.via f1 f2 fT) rng) := by
  have hdim : ((equ.via f1 f2 fT).Dims x.length y.length) ↔ equ.Dims x.length y.length := by
    constructor <;> rintro ⟨ha, hb, hg, hc⟩ <;> exact ⟨by simpa [PPE.via] using ha, by simpa [PPE.via] using hb, hg, hc⟩
  refine imageOf_of (fun r h => ?_) fun h => (C36_ppe ..).1.mpr (by
    have := (C36_ppe ..).1.mp h
    simpa only [Commit.via, CRS.via, List.length_map, ne_eq, List.map_eq_nil_iff, hdim] using this)
  obtain ⟨hx, hy, hR, hS, hd, hu, hv⟩ := (C36_ppe ..).1.mp ⟨_, h⟩
  clear hdim
  obtain ⟨m, hm⟩ : ∃ m, x.length = m := ⟨_, rfl⟩
  obtain ⟨n, hn⟩ : ∃ n, y.length = n := ⟨_, rfl⟩
  rw [hm] at hR hd
  rw [hn] at hS hd
  have hm0 : 0 < m := hm ▸ List.length_pos_iff.mpr hx
  have hn0 : 0 < n := hn ▸ List.length_pos_iff.mpr hy
  obtain ⟨x, rfl⟩ := exists_ofFn x hm
  obtain ⟨y, rfl⟩ := exists_ofFn y hn
  obtain ⟨R, hR⟩ := rect_iff.mp hR
  obtain ⟨S, hS⟩ := rect_iff.mp hS
  obtain ⟨a, ha⟩ := exists_ofFn _ hd.a
  obtain ⟨b, hb⟩ := exists_ofFn _ hd.b
  obtain ⟨γ, hγ⟩ := rect_iff.mp (⟨hd.rows, hd.cols⟩ : Rect m n equ.gamma)
  obtain ⟨u0, u1, hu⟩ := length_two_via hu
  obtain ⟨v0, v1, hv⟩ := length_two_via hv
  rw [PPE.prove_closed hm0 hn0 ha hb hγ x y hR hS hu hv
    (T := ![![(d1 F G1 G2 rng).1, (d1 F G1 G2 (d1 F G1 G2 rng).2).1], ![(d1 F G1 G2 (d1 F G1 G2 (d1 F G1 G2 rng).2).2).1, (d1 F G1 G2 (d1 F G1 G2 (d1 F G1 G2 (d1 F G1 G2 rng).2).2).2).1]]) rfl rfl] at h
  cases h
  have h' := PPE.prove_closed (self := equ.via f1 f2 fT) (sch := sch') (crs := crs.via f1 f2 fT) (xc := xc.via f1) (yc := yc.via f2)
    (rng := rng) hm0 hn0 (a := f1 ∘ a) (b := f2 ∘ b) (γ := γ)
    (by simp only [PPE.via, ha, List.map_ofFn]) (by simp only [PPE.via, hb, List.map_ofFn]) hγ (f1 ∘ x) (f2 ∘ y) hR hS
    (by simp only [CRS.via, hu]; rfl) (by simp only [CRS.via, hv]; rfl)
    (T := ![![(d1 F G1 G2 rng).1, (d1 F G1 G2 (d1 F G1 G2 rng).2).1], ![(d1 F G1 G2 (d1 F G1 G2 (d1 F G1 G2 rng).2).2).1, (d1 F G1 G2 (d1 F G1 G2 (d1 F G1 G2 (d1 F G1 G2 rng).2).2).2).1]]) (by simp only [d1, hr.scalar]; rfl) rfl
  simp only [List.map_ofFn]
  rw [h']
  simp only [d1, hr.scalar, Prod.map_apply, EquProof.via, List.map_ofFn, via_fun, via_piVal, via_thetaVal, comp_vec1, comp_vec2, id]
  simp only [Function.comp_def, via_i1, via_i2, map_smul, map_add, via_linearMap1, via_linearMap2, CRS.via]

/-- C88, MSMEG1: `prove`. -/
theorem C88_msmeg1_prove (hr : RngHom (ρ := ρ) f1 f2) (equ : MSMEG1 F G1) (x : List G1) (y : List F) (xc : Commit F G1)
    (yc : Commit F G2) (crs : CRS G1 G2 GT) (rng : ρ) :
    ImageOf (Prod.map (EquProof.via f1 f2) id) (equ.prove sch x y xc yc crs rng)
      ((equ.via f1).prove sch' (x.map f1) (y) (xc.via f1) (yc.via f2) (crs.via f1 f2 fT) rng) := by
  have hdim : ((equ.via f1).Dims x.length y.length) ↔ equ.Dims x.length y.length := by
    constructor <;> rintro ⟨ha, hb, hg, hc⟩ <;> exact ⟨by simpa [MSMEG1.via] using ha, by simpa [MSMEG1.via] using hb, hg, hc⟩
  refine imageOf_of (fun r h => ?_) fun h => (C36_msmeg1 ..).1.mpr (by
    have := (C36_msmeg1 ..).1.mp h
    simpa only [Commit.via, CRS.via, List.length_map, ne_eq, List.map_eq_nil_iff, hdim] using this)
  obtain ⟨hx, hy, hR, hS, hd, hu, hv⟩ := (C36_msmeg1 ..).1.mp ⟨_, h⟩
  clear hdim
  obtain ⟨m, hm⟩ : ∃ m, x.length = m := ⟨_, rfl⟩
  obtain ⟨n, hn⟩ : ∃ n, y.length = n := ⟨_, rfl⟩
  rw [hm] at hR hd
  rw [hn] at hS hd
  have hm0 : 0 < m := hm ▸ List.length_pos_iff.mpr hx
  have hn0 : 0 < n := hn ▸ List.length_pos_iff.mpr hy
  obtain ⟨x, rfl⟩ := exists_ofFn x hm
  obtain ⟨y, rfl⟩ := exists_ofFn y hn
  obtain ⟨R, hR⟩ := rect_iff.mp hR
  obtain ⟨S, hS⟩ := rect_iff.mp hS
  obtain ⟨a, ha⟩ := exists_ofFn _ hd.a
  obtain ⟨b, hb⟩ := exists_ofFn _ hd.b
  obtain ⟨γ, hγ⟩ := rect_iff.mp (⟨hd.rows, hd.cols⟩ : Rect m n equ.gamma)
  obtain ⟨u0, u1, hu⟩ := length_two_via hu
  obtain ⟨v0, v1, v', hv⟩ := cons2_of_length hv
  rw [MSMEG1.prove_closed hm0 hn0 ha hb hγ x y hR hS hu hv
    (T := ![![(d1 F G1 G2 rng).1, (d1 F G1 G2 (d1 F G1 G2 rng).2).1]]) rfl rfl] at h
  cases h
  have h' := MSMEG1.prove_closed (self := equ.via f1) (sch := sch') (crs := crs.via f1 f2 fT) (xc := xc.via f1) (yc := yc.via f2)
    (rng := rng) hm0 hn0 (a := f1 ∘ a) (b := b) (γ := γ)
    (by simp only [MSMEG1.via, ha, List.map_ofFn]) hb hγ (f1 ∘ x) y hR hS
    (by simp only [CRS.via, hu]; rfl) (by simp only [CRS.via, hv]; rfl)
    (T := ![![(d1 F G1 G2 rng).1, (d1 F G1 G2 (d1 F G1 G2 rng).2).1]]) (by simp only [d1, hr.scalar]; rfl) rfl
  simp only [List.map_ofFn]
  rw [h']
  simp only [d1, hr.scalar, Prod.map_apply, EquProof.via, List.map_ofFn, via_fun, via_piVal, via_thetaVal, comp_vec1, comp_vec2, id]
  simp only [Function.comp_def, via_i1, via_i2, map_smul, map_add, via_linearMap1, via_linearMap2, CRS.via]

/-- C88, MSMEG2: `prove`. -/
theorem C88_msmeg2_prove (hr : RngHom (ρ := ρ) f1 f2) (equ : MSMEG2 F G2) (x : List F) (y : List G2) (xc : Commit F G1)
    (yc : Commit F G2) (crs : CRS G1 G2 GT) (rng : ρ) :
    ImageOf (Prod.map (EquProof.via f1 f2) id) (equ.prove sch x y xc yc crs rng)
      ((equ.via f2).prove sch' (x) (y.map f2) (xc.via f1) (yc.via f2) (crs.via f1 f2 fT) rng) := by
  have hdim : ((equ.via f2).Dims x.length y.length) ↔ equ.Dims x.length y.length := by
    constructor <;> rintro ⟨ha, hb, hg, hc⟩ <;> exact ⟨by simpa [MSMEG2.via] using ha, by simpa [MSMEG2.via] using hb, hg, hc⟩
  refine imageOf_of (fun r h => ?_) fun h => (C36_msmeg2 ..).1.mpr (by
    have := (C36_msmeg2 ..).1.mp h
    simpa only [Commit.via, CRS.via, List.length_map, ne_eq, List.map_eq_nil_iff, hdim] using this)
  obtain ⟨hx, hy, hR, hS, hd, hu, hv⟩ := (C36_msmeg2 ..).1.mp ⟨_, h⟩
  clear hdim
  obtain ⟨m, hm⟩ : ∃ m, x.length = m := ⟨_, rfl⟩
  obtain ⟨n, hn⟩ : ∃ n, y.length = n := ⟨_, rfl⟩
  rw [hm] at hR hd
  rw [hn] at hS hd
  have hm0 : 0 < m := hm ▸ List.length_pos_iff.mpr hx
  have hn0 : 0 < n := hn ▸ List.length_pos_iff.mpr hy
  obtain ⟨x, rfl⟩ := exists_ofFn x hm
  obtain ⟨y, rfl⟩ := exists_ofFn y hn
  obtain ⟨R, hR⟩ := rect_iff.mp hR
  obtain ⟨S, hS⟩ := rect_iff.mp hS
  obtain ⟨a, ha⟩ := exists_ofFn _ hd.a
  obtain ⟨b, hb⟩ := exists_ofFn _ hd.b
  obtain ⟨γ, hγ⟩ := rect_iff.mp (⟨hd.rows, hd.cols⟩ : Rect m n equ.gamma)
  obtain ⟨u0, u1, u', hu⟩ := cons2_of_length hu
  obtain ⟨v0, v1, hv⟩ := length_two_via hv
  rw [MSMEG2.prove_closed hm0 hn0 ha hb hγ x y hR hS hu hv
    (T := ![![(d1 F G1 G2 rng).1], ![(d1 F G1 G2 (d1 F G1 G2 rng).2).1]]) rfl rfl] at h
  cases h
  have h' := MSMEG2.prove_closed (self := equ.via f2) (sch := sch') (crs := crs.via f1 f2 fT) (xc := xc.via f1) (yc := yc.via f2)
    (rng := rng) hm0 hn0 (a := a) (b := f2 ∘ b) (γ := γ)
    ha (by simp only [MSMEG2.via, hb, List.map_ofFn]) hγ x (f2 ∘ y) hR hS
    (by simp only [CRS.via, hu]; rfl) (by simp only [CRS.via, hv]; rfl)
    (T := ![![(d1 F G1 G2 rng).1], ![(d1 F G1 G2 (d1 F G1 G2 rng).2).1]]) (by simp only [d1, hr.scalar]; rfl) rfl
  simp only [List.map_ofFn]
  rw [h']
  simp only [d1, hr.scalar, Prod.map_apply, EquProof.via, List.map_ofFn, via_fun, via_piVal, via_thetaVal, comp_vec1, comp_vec2, id]
  simp only [Function.comp_def, via_i1, via_i2, map_smul, map_add, via_linearMap1, via_linearMap2, CRS.via]

/-- C88, QuadEqu: `prove`. -/
theorem C88_quad_prove (hr : RngHom (ρ := ρ) f1 f2) (equ : QuadEqu F) (x : List F) (y : List F) (xc : Commit F G1)
    (yc : Commit F G2) (crs : CRS G1 G2 GT) (rng : ρ) :
    ImageOf (Prod.map (EquProof.via f1 f2) id) (equ.prove sch x y xc yc crs rng)
      ((equ).prove sch' (x) (y) (xc.via f1) (yc.via f2) (crs.via f1 f2 fT) rng) := by
  have hdim : ((equ).Dims x.length y.length) ↔ equ.Dims x.length y.length := by
    constructor <;> rintro ⟨ha, hb, hg, hc⟩ <;> exact ⟨by simpa [] using ha, by simpa [] using hb, hg, hc⟩
  refine imageOf_of (fun r h => ?_) fun h => (C36_quad ..).1.mpr (by
    have := (C36_quad ..).1.mp h
    simpa only [Commit.via, CRS.via, List.length_map, ne_eq, List.map_eq_nil_iff, hdim] using this)
  obtain ⟨hx, hy, hR, hS, hd, hu, hv⟩ := (C36_quad ..).1.mp ⟨_, h⟩
  clear hdim
  obtain ⟨m, hm⟩ : ∃ m, x.length = m := ⟨_, rfl⟩
  obtain ⟨n, hn⟩ : ∃ n, y.length = n := ⟨_, rfl⟩
  rw [hm] at hR hd
  rw [hn] at hS hd
  have hm0 : 0 < m := hm ▸ List.length_pos_iff.mpr hx
  have hn0 : 0 < n := hn ▸ List.length_pos_iff.mpr hy
  obtain ⟨x, rfl⟩ := exists_ofFn x hm
  obtain ⟨y, rfl⟩ := exists_ofFn y hn
  obtain ⟨R, hR⟩ := rect_iff.mp hR
  obtain ⟨S, hS⟩ := rect_iff.mp hS
  obtain ⟨a, ha⟩ := exists_ofFn _ hd.a
  obtain ⟨b, hb⟩ := exists_ofFn _ hd.b
  obtain ⟨γ, hγ⟩ := rect_iff.mp (⟨hd.rows, hd.cols⟩ : Rect m n equ.gamma)
  obtain ⟨u0, u1, u', hu⟩ := cons2_of_length hu
  obtain ⟨v0, v1, v', hv⟩ := cons2_of_length hv
  rw [QuadEqu.prove_closed hm0 hn0 ha hb hγ x y hR hS hu hv
    (T := ![![(d1 F G1 G2 rng).1]]) rfl rfl] at h
  cases h
  have h' := QuadEqu.prove_closed (self := equ) (sch := sch') (crs := crs.via f1 f2 fT) (xc := xc.via f1) (yc := yc.via f2)
    (rng := rng) hm0 hn0 (a := a) (b := b) (γ := γ)
    ha hb hγ x y hR hS
    (by simp only [CRS.via, hu]; rfl) (by simp only [CRS.via, hv]; rfl)
    (T := ![![(d1 F G1 G2 rng).1]]) (by simp only [d1, hr.scalar]; rfl) rfl
  rw [h']
  simp only [d1, hr.scalar, Prod.map_apply, EquProof.via, List.map_ofFn, via_fun, via_piVal, via_thetaVal, comp_vec1, comp_vec2, id]
  simp only [Function.comp_def, via_i1, via_i2, map_smul, map_add, via_linearMap1, via_linearMap2, CRS.via]

/-- C88, PPE: `commit_and_prove`. -/
theorem C88_ppe_commit_and_prove (hr : RngHom (ρ := ρ) f1 f2) (equ : PPE F G1 G2 GT) (x : List G1) (y : List G2)
    (crs : CRS G1 G2 GT) (rng : ρ) :
    ImageOf (Prod.map (CProof.via f1 f2) id) (equ.commitAndProve sch x y crs rng)
      ((equ.via f1 f2 fT).commitAndProve sch' (x.map f1) (y.map f2) (crs.via f1 f2 fT) rng) := by
  refine imageOf_bind (C88_batch_commit_G1 hr x crs rng) fun ⟨xc, r1⟩ => ?_
  refine imageOf_bind (C88_batch_commit_G2 hr y crs r1) fun ⟨yc, r2⟩ => ?_
  refine imageOf_bind (C88_ppe_prove hr equ x y xc yc crs r2) fun ⟨pf, r3⟩ => ?_
  exact imageOf_of (by rintro _ ⟨⟩; rfl) fun _ => ⟨_, rfl⟩

/-- C88, MSMEG1: `commit_and_prove`. -/
theorem C88_msmeg1_commit_and_prove (hr : RngHom (ρ := ρ) f1 f2) (equ : MSMEG1 F G1) (x : List G1) (y : List F)
    (crs : CRS G1 G2 GT) (rng : ρ) :
    ImageOf (Prod.map (CProof.via f1 f2) id) (equ.commitAndProve sch x y crs rng)
      ((equ.via f1).commitAndProve sch' (x.map f1) (y) (crs.via f1 f2 fT) rng) := by
  refine imageOf_bind (C88_batch_commit_G1 hr x crs rng) fun ⟨xc, r1⟩ => ?_
  refine imageOf_bind (C88_batch_commit_scalar_B2 hr y crs r1) fun ⟨yc, r2⟩ => ?_
  refine imageOf_bind (C88_msmeg1_prove hr equ x y xc yc crs r2) fun ⟨pf, r3⟩ => ?_
  exact imageOf_of (by rintro _ ⟨⟩; rfl) fun _ => ⟨_, rfl⟩

/-- C88, MSMEG2: `commit_and_prove`. -/
theorem C88_msmeg2_commit_and_prove (hr : RngHom (ρ := ρ) f1 f2) (equ : MSMEG2 F G2) (x : List F) (y : List G2)
    (crs : CRS G1 G2 GT) (rng : ρ) :
    ImageOf (Prod.map (CProof.via f1 f2) id) (equ.commitAndProve sch x y crs rng)
      ((equ.via f2).commitAndProve sch' (x) (y.map f2) (crs.via f1 f2 fT) rng) := by
  refine imageOf_bind (C88_batch_commit_scalar_B1 hr x crs rng) fun ⟨xc, r1⟩ => ?_
  refine imageOf_bind (C88_batch_commit_G2 hr y crs r1) fun ⟨yc, r2⟩ => ?_
  refine imageOf_bind (C88_msmeg2_prove hr equ x y xc yc crs r2) fun ⟨pf, r3⟩ => ?_
  exact imageOf_of (by rintro _ ⟨⟩; rfl) fun _ => ⟨_, rfl⟩

/-- C88, QuadEqu: `commit_and_prove`. -/
theorem C88_quad_commit_and_prove (hr : RngHom (ρ := ρ) f1 f2) (equ : QuadEqu F) (x : List F) (y : List F)
    (crs : CRS G1 G2 GT) (rng : ρ) :
    ImageOf (Prod.map (CProof.via f1 f2) id) (equ.commitAndProve sch x y crs rng)
      ((equ).commitAndProve sch' (x) (y) (crs.via f1 f2 fT) rng) := by
  refine imageOf_bind (C88_batch_commit_scalar_B1 hr x crs rng) fun ⟨xc, r1⟩ => ?_
  refine imageOf_bind (C88_batch_commit_scalar_B2 hr y crs r1) fun ⟨yc, r2⟩ => ?_
  refine imageOf_bind (C88_quad_prove hr equ x y xc yc crs r2) fun ⟨pf, r3⟩ => ?_
  exact imageOf_of (by rintro _ ⟨⟩; rfl) fun _ => ⟨_, rfl⟩

end prove

end rng

/-! ### Verification -/

section verify

theorem via_tensor (he : PairingHom e e' f1 f2 fT) (c : Com G1) (d : Com G2) :
    tensor e' (comHom f1 c) (comHom f2 d) = comTHom fT (tensor e c d) := by
  ext <;> exact (he _ _).symm

theorem via_sum (he : PairingHom e e' f1 f2 fT) : ∀ (c : List (Com G1)) (d : List (Com G2)),
    (List.zipWith (tensor e') (c.map (comHom f1)) (d.map (comHom f2))).sum = comTHom fT (List.zipWith (tensor e) c d).sum
  | [], _ => by simp
  | _ :: _, [] => by simp
  | c :: cs, d :: ds => by
    simp only [List.map_cons, List.zipWith_cons_cons, List.sum_cons, via_tensor he, via_sum he cs ds, map_add]

theorem comTHom_inj (hT : Function.Injective fT) : Function.Injective (comTHom (F := F) fT) := by
  intro x y h
  have h' : ComT.via fT x = ComT.via fT y := h
  simp only [ComT.via, ComT.mk.injEq] at h'
  ext
  · exact hT h'.1
  · exact hT h'.2.1
  · exact hT h'.2.2.1
  · exact hT h'.2.2.2

/-- The image of the verification equation says that the images of its two sides are equal. -/
theorem gsEquation_via (he : PairingHom e e' f1 f2 fT) (a c : List (Com G1)) (b d : List (Com G2)) (γ : Matrix F) (t : ComT GT)
    (u : List (Com G1)) (π : List (Com G2)) (θ : List (Com G1)) (v : List (Com G2)) :
    (gsEquation e a c b d γ t u π θ v → gsEquation e' (a.map (comHom f1)) (c.map (comHom f1)) (b.map (comHom f2)) (d.map (comHom f2)) γ
      (comTHom fT t) (u.map (comHom f1)) (π.map (comHom f2)) (θ.map (comHom f1)) (v.map (comHom f2))) ∧
    (Function.Injective fT → gsEquation e' (a.map (comHom f1)) (c.map (comHom f1)) (b.map (comHom f2)) (d.map (comHom f2)) γ
      (comTHom fT t) (u.map (comHom f1)) (π.map (comHom f2)) (θ.map (comHom f1)) (v.map (comHom f2)) →
      gsEquation e a c b d γ t u π θ v) := by
  unfold gsEquation
  rw [equLhs_comp (tensor e) (tensor e') (comHom f1) (comHom f2) (comTHom fT) (via_tensor he), via_sum he, via_sum he,
    ← map_add, ← map_add]
  exact ⟨congrArg _, fun hT h => comTHom_inj hT h⟩

variable [DecidableEq GT] [DecidableEq GT'] {sch sch' : Scheduler}

theorem accepted_iff {x y : Res Bool} {P Q : Prop} (hok : x.Ok ↔ y.Ok) (hx : ∀ r, x = .ok r → (r = true ↔ P))
    (hy : ∀ r, y = .ok r → (r = true ↔ Q)) (h : x.Ok → P → Q) (hx1 : x = .ok true) : y = .ok true := by
  obtain ⟨r, hr⟩ := hok.mp ⟨_, hx1⟩
  rw [hr, (hy r hr).mpr (h ⟨_, hx1⟩ ((hx _ hx1).mp rfl))]

theorem PPE.equation_via (he : PairingHom e e' f1 f2 fT) (equ : PPE F G1 G2 GT) (crs : CRS G1 G2 GT) (c : List (Com G1))
    (d : List (Com G2)) (pf : EquProof F G1 G2)  :
    (equ.Equation e crs c d pf → (equ.via f1 f2 fT).Equation e' (crs.via f1 f2 fT) (c.map (comHom f1)) (d.map (comHom f2)) (pf.via f1 f2)) ∧
    (Function.Injective fT → (equ.via f1 f2 fT).Equation e' (crs.via f1 f2 fT) (c.map (comHom f1)) (d.map (comHom f2)) (pf.via f1 f2) → equ.Equation e crs c d pf) := by
  have h := gsEquation_via he (equ.a_consts.map emb) c (equ.b_consts.map emb) d equ.gamma ⟨0, 0, 0, equ.target⟩ crs.u pf.pi pf.theta crs.v
  have ht : comTHom (F := F) fT ⟨0, 0, 0, equ.target⟩ = ⟨0, 0, 0, fT equ.target⟩ := by ext <;> simp [comTHom, ComT.via]
  simp only [ht, List.map_map, Function.comp_def, via_emb] at h
  simpa only [PPE.Equation, PPE.via, CRS.via, EquProof.via, via_fun, List.map_map, Function.comp_def] using h

theorem MSMEG1.equation_via (he : PairingHom e e' f1 f2 fT) (equ : MSMEG1 F G1) (crs : CRS G1 G2 GT) (c : List (Com G1))
    (d : List (Com G2)) (pf : EquProof F G1 G2) (hv : 2 ≤ crs.v.length) (ht : pf.theta ≠ []) :
    (equ.Equation e crs c d pf → (equ.via f1).Equation e' (crs.via f1 f2 fT) (c.map (comHom f1)) (d.map (comHom f2)) (pf.via f1 f2)) ∧
    (Function.Injective fT → (equ.via f1).Equation e' (crs.via f1 f2 fT) (c.map (comHom f1)) (d.map (comHom f2)) (pf.via f1 f2) → equ.Equation e crs c d pf) := by
  obtain ⟨v0, v1, v', hv⟩ := cons2_of_length hv
  obtain ⟨t0, t', ht⟩ := List.exists_cons_of_ne_nil ht
  have h := gsEquation_via he (equ.a_consts.map emb) c (equ.b_consts.map fun b => b • (v1 + emb crs.g2_gen)) d equ.gamma (tensor e (emb equ.target) (v1 + emb crs.g2_gen)) crs.u pf.pi [t0] [v0]
  rw [(MSMEG1.equation_iff (by rw [hv]; rfl) (by rw [hv]; rfl) (by rw [ht]; rfl)), (MSMEG1.equation_iff (v0 := comHom f2 v0) (v1 := comHom f2 v1) (q0 := comHom f1 t0) (by simp only [CRS.via, hv]; rfl) (by simp only [CRS.via, hv]; rfl) (by simp only [EquProof.via, ht]; rfl))]
  simp only [← via_tensor he, List.map_map, Function.comp_def, via_emb, map_smul, map_add, List.map_cons, List.map_nil] at h
  simpa only [MSMEG1.via, CRS.via, EquProof.via, via_fun, List.map_map, Function.comp_def] using h

theorem MSMEG2.equation_via (he : PairingHom e e' f1 f2 fT) (equ : MSMEG2 F G2) (crs : CRS G1 G2 GT) (c : List (Com G1))
    (d : List (Com G2)) (pf : EquProof F G1 G2) (hu : 2 ≤ crs.u.length) (hp : pf.pi ≠ []) :
    (equ.Equation e crs c d pf → (equ.via f2).Equation e' (crs.via f1 f2 fT) (c.map (comHom f1)) (d.map (comHom f2)) (pf.via f1 f2)) ∧
    (Function.Injective fT → (equ.via f2).Equation e' (crs.via f1 f2 fT) (c.map (comHom f1)) (d.map (comHom f2)) (pf.via f1 f2) → equ.Equation e crs c d pf) := by
  obtain ⟨u0, u1, u', hu⟩ := cons2_of_length hu
  obtain ⟨p0, p', hp⟩ := List.exists_cons_of_ne_nil hp
  have h := gsEquation_via he (equ.a_consts.map fun a => a • (u1 + emb crs.g1_gen)) c (equ.b_consts.map emb) d equ.gamma (tensor e (u1 + emb crs.g1_gen) (emb equ.target)) [u0] [p0] pf.theta crs.v
  rw [(MSMEG2.equation_iff (by rw [hu]; rfl) (by rw [hu]; rfl) (by rw [hp]; rfl)), (MSMEG2.equation_iff (u0 := comHom f1 u0) (u1 := comHom f1 u1) (p0 := comHom f2 p0) (by simp only [CRS.via, hu]; rfl) (by simp only [CRS.via, hu]; rfl) (by simp only [EquProof.via, hp]; rfl))]
  simp only [← via_tensor he, List.map_map, Function.comp_def, via_emb, map_smul, map_add, List.map_cons, List.map_nil] at h
  simpa only [MSMEG2.via, CRS.via, EquProof.via, via_fun, List.map_map, Function.comp_def] using h

theorem QuadEqu.equation_via (he : PairingHom e e' f1 f2 fT) (equ : QuadEqu F) (crs : CRS G1 G2 GT) (c : List (Com G1))
    (d : List (Com G2)) (pf : EquProof F G1 G2) (hu : 2 ≤ crs.u.length) (hp : pf.pi ≠ []) (hv : 2 ≤ crs.v.length) (ht : pf.theta ≠ []) :
    (equ.Equation e crs c d pf → (equ).Equation e' (crs.via f1 f2 fT) (c.map (comHom f1)) (d.map (comHom f2)) (pf.via f1 f2)) ∧
    (Function.Injective fT → (equ).Equation e' (crs.via f1 f2 fT) (c.map (comHom f1)) (d.map (comHom f2)) (pf.via f1 f2) → equ.Equation e crs c d pf) := by
  obtain ⟨u0, u1, u', hu⟩ := cons2_of_length hu
  obtain ⟨p0, p', hp⟩ := List.exists_cons_of_ne_nil hp
  obtain ⟨v0, v1, v', hv⟩ := cons2_of_length hv
  obtain ⟨t0, t', ht⟩ := List.exists_cons_of_ne_nil ht
  have h := gsEquation_via he (equ.a_consts.map fun a => a • (u1 + emb crs.g1_gen)) c (equ.b_consts.map fun b => b • (v1 + emb crs.g2_gen)) d equ.gamma (equ.target • tensor e (u1 + emb crs.g1_gen) (v1 + emb crs.g2_gen)) [u0] [p0] [t0] [v0]
  rw [(QuadEqu.equation_iff (by rw [hu]; rfl) (by rw [hu]; rfl) (by rw [hp]; rfl) (by rw [hv]; rfl) (by rw [hv]; rfl) (by rw [ht]; rfl)), (QuadEqu.equation_iff (u0 := comHom f1 u0) (u1 := comHom f1 u1) (v0 := comHom f2 v0) (v1 := comHom f2 v1) (p0 := comHom f2 p0) (q0 := comHom f1 t0) (by simp only [CRS.via, hu]; rfl) (by simp only [CRS.via, hu]; rfl) (by simp only [EquProof.via, hp]; rfl) (by simp only [CRS.via, hv]; rfl) (by simp only [CRS.via, hv]; rfl) (by simp only [EquProof.via, ht]; rfl))]
  simp only [← via_tensor he, List.map_map, Function.comp_def, via_emb, map_smul, map_add, List.map_cons, List.map_nil] at h
  simpa only [CRS.via, EquProof.via, via_fun, List.map_map, Function.comp_def] using h

/-- C88, PPE: `verify` on the images. -/
theorem C88_ppe_verify (he : PairingHom e e' f1 f2 fT) (equ : PPE F G1 G2 GT) (cp : CProof F G1 G2) (crs : CRS G1 G2 GT) :
    (((equ.via f1 f2 fT).verify e' sch' (cp.via f1 f2) (crs.via f1 f2 fT)).Ok ↔ (equ.verify e sch cp crs).Ok) ∧
    (equ.verify e sch cp crs = .ok true → (equ.via f1 f2 fT).verify e' sch' (cp.via f1 f2) (crs.via f1 f2 fT) = .ok true) ∧
    (Function.Injective fT →
      SameOutcome (equ.verify e sch cp crs) ((equ.via f1 f2 fT).verify e' sch' (cp.via f1 f2) (crs.via f1 f2 fT))) := by
  obtain ⟨xc, yc, pfs⟩ := cp
  have hdom : (equ.verify e sch ⟨xc, yc, pfs⟩ crs).Ok ↔
      ((equ.via f1 f2 fT).verify e' sch' (CProof.via f1 f2 ⟨xc, yc, pfs⟩) (crs.via f1 f2 fT)).Ok := by
    rw [C37_ppe, C37_ppe]
    constructor
    · rintro ⟨pf, rfl, h⟩
      refine ⟨pf.via f1 f2, rfl, ?_⟩
      simpa only [PPE.via, CProof.via, Commit.via, CRS.via, EquProof.via, List.length_map, ne_eq, List.map_eq_nil_iff] using h
    · rintro ⟨pf', hpf, h⟩
      obtain ⟨pf, rfl, rfl⟩ := List.map_eq_singleton_iff.mp hpf
      refine ⟨pf, rfl, ?_⟩
      simpa only [PPE.via, CProof.via, Commit.via, CRS.via, EquProof.via, List.length_map, ne_eq, List.map_eq_nil_iff] using h
  by_cases hok : (equ.verify e sch ⟨xc, yc, pfs⟩ crs).Ok
  · obtain ⟨pf, hpf, -, -, -, -, hpi, hth⟩ := (C37_ppe ..).mp hok
    cases hpf
    have h := PPE.equation_via he equ crs xc.coms yc.coms pf 
    have k1 : ∀ r, equ.verify e sch ⟨xc, yc, [pf]⟩ crs = .ok r → (r = true ↔ equ.Equation e crs xc.coms yc.coms pf) := by
      intro r hr
      obtain ⟨_, hpf, h⟩ := C53_ppe _ _ _ _ hr
      cases hpf
      exact h
    have k2 : ∀ r, (equ.via f1 f2 fT).verify e' sch' (CProof.via f1 f2 ⟨xc, yc, [pf]⟩) (crs.via f1 f2 fT) = .ok r →
        (r = true ↔ (equ.via f1 f2 fT).Equation e' (crs.via f1 f2 fT) (xc.coms.map (comHom f1)) (yc.coms.map (comHom f2)) (pf.via f1 f2)) := by
      intro r hr
      obtain ⟨_, hpf, h⟩ := C53_ppe _ _ _ _ hr
      cases hpf
      exact h
    exact ⟨hdom.symm, accepted_iff hdom k1 k2 fun _ => h.1, fun hT => sameOutcome_of_equation hdom k1 k2 fun _ => ⟨h.1, h.2 hT⟩⟩
  · refine ⟨hdom.symm, fun h => absurd ⟨_, h⟩ hok, fun _ => sameOutcome_of_bool hdom ⟨fun h => absurd ⟨_, h⟩ hok, fun h => ?_⟩⟩
    exact absurd (hdom.mpr ⟨_, h⟩) hok

/-- C88, MSMEG1: `verify` on the images. -/
theorem C88_msmeg1_verify (he : PairingHom e e' f1 f2 fT) (equ : MSMEG1 F G1) (cp : CProof F G1 G2) (crs : CRS G1 G2 GT) :
    (((equ.via f1).verify e' sch' (cp.via f1 f2) (crs.via f1 f2 fT)).Ok ↔ (equ.verify e sch cp crs).Ok) ∧
    (equ.verify e sch cp crs = .ok true → (equ.via f1).verify e' sch' (cp.via f1 f2) (crs.via f1 f2 fT) = .ok true) ∧
    (Function.Injective fT →
      SameOutcome (equ.verify e sch cp crs) ((equ.via f1).verify e' sch' (cp.via f1 f2) (crs.via f1 f2 fT))) := by
  obtain ⟨xc, yc, pfs⟩ := cp
  have hdom : (equ.verify e sch ⟨xc, yc, pfs⟩ crs).Ok ↔
      ((equ.via f1).verify e' sch' (CProof.via f1 f2 ⟨xc, yc, pfs⟩) (crs.via f1 f2 fT)).Ok := by
    rw [C37_msmeg1, C37_msmeg1]
    constructor
    · rintro ⟨pf, rfl, h⟩
      refine ⟨pf.via f1 f2, rfl, ?_⟩
      simpa only [MSMEG1.via, CProof.via, Commit.via, CRS.via, EquProof.via, List.length_map, ne_eq, List.map_eq_nil_iff] using h
    · rintro ⟨pf', hpf, h⟩
      obtain ⟨pf, rfl, rfl⟩ := List.map_eq_singleton_iff.mp hpf
      refine ⟨pf, rfl, ?_⟩
      simpa only [MSMEG1.via, CProof.via, Commit.via, CRS.via, EquProof.via, List.length_map, ne_eq, List.map_eq_nil_iff] using h
  by_cases hok : (equ.verify e sch ⟨xc, yc, pfs⟩ crs).Ok
  · obtain ⟨pf, hpf, -, -, -, -, hpi, hth, hv⟩ := (C37_msmeg1 ..).mp hok
    cases hpf
    have h := MSMEG1.equation_via he equ crs xc.coms yc.coms pf hv hth
    have k1 : ∀ r, equ.verify e sch ⟨xc, yc, [pf]⟩ crs = .ok r → (r = true ↔ equ.Equation e crs xc.coms yc.coms pf) := by
      intro r hr
      obtain ⟨_, hpf, h⟩ := C53_msmeg1 _ _ _ _ hr
      cases hpf
      exact h
    have k2 : ∀ r, (equ.via f1).verify e' sch' (CProof.via f1 f2 ⟨xc, yc, [pf]⟩) (crs.via f1 f2 fT) = .ok r →
        (r = true ↔ (equ.via f1).Equation e' (crs.via f1 f2 fT) (xc.coms.map (comHom f1)) (yc.coms.map (comHom f2)) (pf.via f1 f2)) := by
      intro r hr
      obtain ⟨_, hpf, h⟩ := C53_msmeg1 _ _ _ _ hr
      cases hpf
      exact h
    exact ⟨hdom.symm, accepted_iff hdom k1 k2 fun _ => h.1, fun hT => sameOutcome_of_equation hdom k1 k2 fun _ => ⟨h.1, h.2 hT⟩⟩
  · refine ⟨hdom.symm, fun h => absurd ⟨_, h⟩ hok, fun _ => sameOutcome_of_bool hdom ⟨fun h => absurd ⟨_, h⟩ hok, fun h => ?_⟩⟩
    exact absurd (hdom.mpr ⟨_, h⟩) hok

/-- C88, MSMEG2: `verify` on the images. -/
theorem C88_msmeg2_verify (he : PairingHom e e' f1 f2 fT) (equ : MSMEG2 F G2) (cp : CProof F G1 G2) (crs : CRS G1 G2 GT) :
    (((equ.via f2).verify e' sch' (cp.via f1 f2) (crs.via f1 f2 fT)).Ok ↔ (equ.verify e sch cp crs).Ok) ∧
    (equ.verify e sch cp crs = .ok true → (equ.via f2).verify e' sch' (cp.via f1 f2) (crs.via f1 f2 fT) = .ok true) ∧
    (Function.Injective fT →
      SameOutcome (equ.verify e sch cp crs) ((equ.via f2).verify e' sch' (cp.via f1 f2) (crs.via f1 f2 fT))) := by
  obtain ⟨xc, yc, pfs⟩ := cp
  have hdom : (equ.verify e sch ⟨xc, yc, pfs⟩ crs).Ok ↔
      ((equ.via f2).verify e' sch' (CProof.via f1 f2 ⟨xc, yc, pfs⟩) (crs.via f1 f2 fT)).Ok := by
    rw [C37_msmeg2, C37_msmeg2]
    constructor
    · rintro ⟨pf, rfl, h⟩
      refine ⟨pf.via f1 f2, rfl, ?_⟩
      simpa only [MSMEG2.via, CProof.via, Commit.via, CRS.via, EquProof.via, List.length_map, ne_eq, List.map_eq_nil_iff] using h
    · rintro ⟨pf', hpf, h⟩
      obtain ⟨pf, rfl, rfl⟩ := List.map_eq_singleton_iff.mp hpf
      refine ⟨pf, rfl, ?_⟩
      simpa only [MSMEG2.via, CProof.via, Commit.via, CRS.via, EquProof.via, List.length_map, ne_eq, List.map_eq_nil_iff] using h
  by_cases hok : (equ.verify e sch ⟨xc, yc, pfs⟩ crs).Ok
  · obtain ⟨pf, hpf, -, -, -, -, hpi, hu, hth⟩ := (C37_msmeg2 ..).mp hok
    cases hpf
    have h := MSMEG2.equation_via he equ crs xc.coms yc.coms pf hu hpi
    have k1 : ∀ r, equ.verify e sch ⟨xc, yc, [pf]⟩ crs = .ok r → (r = true ↔ equ.Equation e crs xc.coms yc.coms pf) := by
      intro r hr
      obtain ⟨_, hpf, h⟩ := C53_msmeg2 _ _ _ _ hr
      cases hpf
      exact h
    have k2 : ∀ r, (equ.via f2).verify e' sch' (CProof.via f1 f2 ⟨xc, yc, [pf]⟩) (crs.via f1 f2 fT) = .ok r →
        (r = true ↔ (equ.via f2).Equation e' (crs.via f1 f2 fT) (xc.coms.map (comHom f1)) (yc.coms.map (comHom f2)) (pf.via f1 f2)) := by
      intro r hr
      obtain ⟨_, hpf, h⟩ := C53_msmeg2 _ _ _ _ hr
      cases hpf
      exact h
    exact ⟨hdom.symm, accepted_iff hdom k1 k2 fun _ => h.1, fun hT => sameOutcome_of_equation hdom k1 k2 fun _ => ⟨h.1, h.2 hT⟩⟩
  · refine ⟨hdom.symm, fun h => absurd ⟨_, h⟩ hok, fun _ => sameOutcome_of_bool hdom ⟨fun h => absurd ⟨_, h⟩ hok, fun h => ?_⟩⟩
    exact absurd (hdom.mpr ⟨_, h⟩) hok

/-- C88, QuadEqu: `verify` on the images. -/
theorem C88_quad_verify (he : PairingHom e e' f1 f2 fT) (equ : QuadEqu F) (cp : CProof F G1 G2) (crs : CRS G1 G2 GT) :
    (((equ).verify e' sch' (cp.via f1 f2) (crs.via f1 f2 fT)).Ok ↔ (equ.verify e sch cp crs).Ok) ∧
    (equ.verify e sch cp crs = .ok true → (equ).verify e' sch' (cp.via f1 f2) (crs.via f1 f2 fT) = .ok true) ∧
    (Function.Injective fT →
      SameOutcome (equ.verify e sch cp crs) ((equ).verify e' sch' (cp.via f1 f2) (crs.via f1 f2 fT))) := by
  obtain ⟨xc, yc, pfs⟩ := cp
  have hdom : (equ.verify e sch ⟨xc, yc, pfs⟩ crs).Ok ↔
      ((equ).verify e' sch' (CProof.via f1 f2 ⟨xc, yc, pfs⟩) (crs.via f1 f2 fT)).Ok := by
    rw [C37_quad, C37_quad]
    constructor
    · rintro ⟨pf, rfl, h⟩
      refine ⟨pf.via f1 f2, rfl, ?_⟩
      simpa only [CProof.via, Commit.via, CRS.via, EquProof.via, List.length_map, ne_eq, List.map_eq_nil_iff] using h
    · rintro ⟨pf', hpf, h⟩
      obtain ⟨pf, rfl, rfl⟩ := List.map_eq_singleton_iff.mp hpf
      refine ⟨pf, rfl, ?_⟩
      simpa only [CProof.via, Commit.via, CRS.via, EquProof.via, List.length_map, ne_eq, List.map_eq_nil_iff] using h
  by_cases hok : (equ.verify e sch ⟨xc, yc, pfs⟩ crs).Ok
  · obtain ⟨pf, hpf, -, -, -, -, hpi, hu, hth, hv⟩ := (C37_quad ..).mp hok
    cases hpf
    have h := QuadEqu.equation_via he equ crs xc.coms yc.coms pf hu hpi hv hth
    have k1 : ∀ r, equ.verify e sch ⟨xc, yc, [pf]⟩ crs = .ok r → (r = true ↔ equ.Equation e crs xc.coms yc.coms pf) := by
      intro r hr
      obtain ⟨_, hpf, h⟩ := C53_quad _ _ _ _ hr
      cases hpf
      exact h
    have k2 : ∀ r, (equ).verify e' sch' (CProof.via f1 f2 ⟨xc, yc, [pf]⟩) (crs.via f1 f2 fT) = .ok r →
        (r = true ↔ (equ).Equation e' (crs.via f1 f2 fT) (xc.coms.map (comHom f1)) (yc.coms.map (comHom f2)) (pf.via f1 f2)) := by
      intro r hr
      obtain ⟨_, hpf, h⟩ := C53_quad _ _ _ _ hr
      cases hpf
      exact h
    exact ⟨hdom.symm, accepted_iff hdom k1 k2 fun _ => h.1, fun hT => sameOutcome_of_equation hdom k1 k2 fun _ => ⟨h.1, h.2 hT⟩⟩
  · refine ⟨hdom.symm, fun h => absurd ⟨_, h⟩ hok, fun _ => sameOutcome_of_bool hdom ⟨fun h => absurd ⟨_, h⟩ hok, fun h => ?_⟩⟩
    exact absurd (hdom.mpr ⟨_, h⟩) hok

end verify

/-! ### The equations -/

/-- C88: images of solutions are solutions of the image equations; conversely for injective maps. -/
theorem C88_holds (he : PairingHom e e' f1 f2 fT) :
    (∀ (equ : PPE F G1 G2 GT) x y, (equ.Holds e x y → (equ.via f1 f2 fT).Holds e' (x.map f1) (y.map f2)) ∧
      (Function.Injective fT → (equ.via f1 f2 fT).Holds e' (x.map f1) (y.map f2) → equ.Holds e x y)) ∧
    (∀ (equ : MSMEG1 F G1) x y, (equ.Holds x y → (equ.via f1).Holds (x.map f1) y) ∧
      (Function.Injective f1 → (equ.via f1).Holds (x.map f1) y → equ.Holds x y)) ∧
    (∀ (equ : MSMEG2 F G2) x y, (equ.Holds x y → (equ.via f2).Holds x (y.map f2)) ∧
      (Function.Injective f2 → (equ.via f2).Holds x (y.map f2) → equ.Holds x y)) := by
  refine ⟨fun equ x y => ?_, fun equ x y => ?_, fun equ x y => ?_⟩
  · unfold PPE.Holds PPE.via
    dsimp only
    rw [equLhs_comp (fun x y => e x y) (fun x y => e' x y) f1 f2 fT fun x y => (he x y).symm]
    exact ⟨congrArg _, fun hT h => hT h⟩
  · unfold MSMEG1.Holds MSMEG1.via
    dsimp only
    have h := equLhs_comp (F := F) (fun (x : G1) (y : F) => y • x) (fun (x : G1') (y : F) => y • x) f1 id f1
      (fun x y => (map_smul f1 y x).symm) equ.a_consts x equ.b_consts y equ.gamma
    rw [List.map_id, List.map_id] at h
    rw [h]
    exact ⟨congrArg _, fun hT h => hT h⟩
  · unfold MSMEG2.Holds MSMEG2.via
    dsimp only
    have h := equLhs_comp (F := F) (fun (x : F) (y : G2) => x • y) (fun (x : F) (y : G2') => x • y) id f2 f2
      (fun x y => (map_smul f2 x y).symm) equ.a_consts x equ.b_consts y equ.gamma
    rw [List.map_id, List.map_id] at h
    rw [h]
    exact ⟨congrArg _, fun hT h => hT h⟩

/-! ### Example -/

section example7
open Ex

/-- Multiplication by a constant. -/
def scale7 (k : K) : K →ₗ[K] K := LinearMap.mulLeft K k

/-- Doubling `G1` and tripling `G2` multiplies the pairing by six. -/
theorem scale7_hom : PairingHom e7 e7 (scale7 2) (scale7 3) (scale7 6) := by
  intro x y
  simp only [scale7, e7_apply, LinearMap.mulLeft_apply]
  have : (6 : K) = 2 * 3 := by decide
  rw [this]; ring

theorem scale7_inj : Function.Injective (scale7 6) := by
  intro x y h
  exact mul_left_cancel₀ (by decide : (6 : K) ≠ 0) h

/-- A proof is accepted exactly when the proof with all elements of `G1` doubled and all of `G2` tripled is accepted for the
equation and the CRS changed in the same way. -/
example (sch sch' : Scheduler) (cp : CProof K K K) :
    SameOutcome (ppe7.verify e7 sch cp crs7)
      (PPE.verify e7 sch' (⟨[2, 4], [1], [[1, 2]], 6⟩ : PPE K K K K) (cp.via (scale7 2) (scale7 3)) (crs7.via (scale7 2) (scale7 3) (scale7 6))) :=
  (C88_ppe_verify scale7_hom ppe7 cp crs7).2.2 scale7_inj

/-- Without injectivity only one direction holds: under the zero maps everything is accepted. -/
example : ∃ cp : CProof K K K, ppe7.verify e7 seqSched cp crs7 = .ok false ∧
    (ppe7.via 0 0 0).verify e7 seqSched (cp.via (0 : K →ₗ[K] K) (0 : K →ₗ[K] K)) (crs7.via 0 0 (0 : K →ₗ[K] K)) = .ok true :=
  ⟨⟨⟨[0], []⟩, ⟨[0, 0], []⟩, [⟨[0, 0], [0, 0], .PairingProduct, []⟩]⟩, by decide, by decide⟩

/-! ### Instances: `K` as a subgroup of `K × K` -/

/-- A pairing on `K × K` that ignores the second components. -/
def pair7 : (K × K) →ₗ[K] (K × K) →ₗ[K] K := e7.compl₁₂ (LinearMap.fst K K K) (LinearMap.fst K K K)

theorem pair7_hom : PairingHom e7 pair7 (LinearMap.inl K K K) (LinearMap.inl K K K) LinearMap.id := fun x y => by
  simp [pair7]

instance : Rng Nat K (K × K) (K × K) where
  randF s := Rng.randF (F := K) K K s
  randG1 s := (((Rng.randG1 (G1 := K) K K s).1, 0), (Rng.randG1 (G1 := K) K K s).2)
  randG2 s := (((Rng.randG2 (G2 := K) K K s).1, 0), (Rng.randG2 (G2 := K) K K s).2)

theorem pair7_rng : RngHom Nat (LinearMap.inl K K K) (LinearMap.inl K K K) := ⟨fun _ => rfl, fun _ => rfl, fun _ => rfl⟩

section
variable (sch sch' : Nat → Scheduler) (s s' : Scheduler)

example := C88_generate pair7_hom pair7_rng 1
example := C88_commit_G1 (fT := (LinearMap.id : K →ₗ[K] K)) pair7_rng 2 crs7 1
example := C88_commit_G2 (fT := (LinearMap.id : K →ₗ[K] K)) pair7_rng 2 crs7 1
example := C88_commit_scalar_B1 (fT := (LinearMap.id : K →ₗ[K] K)) pair7_rng 2 crs7 1
example := C88_commit_scalar_B2 (fT := (LinearMap.id : K →ₗ[K] K)) pair7_rng 2 crs7 1
example := C88_batch_commit_G1 (fT := (LinearMap.id : K →ₗ[K] K)) pair7_rng [2, 3] crs7 1
example := C88_batch_commit_G2 (fT := (LinearMap.id : K →ₗ[K] K)) pair7_rng [2, 3] crs7 1
example := C88_batch_commit_scalar_B1 (fT := (LinearMap.id : K →ₗ[K] K)) pair7_rng [2, 3] crs7 1
example := C88_batch_commit_scalar_B2 (fT := (LinearMap.id : K →ₗ[K] K)) pair7_rng [2, 3] crs7 1
example := C88_ppe_prove (sch := sch) (sch' := sch') (fT := (LinearMap.id : K →ₗ[K] K)) pair7_rng ppe7 [2] [3, 4] ppe7_msg.xcoms ppe7_msg.ycoms crs7 1
example := C88_ppe_commit_and_prove (sch := sch) (sch' := sch') (fT := (LinearMap.id : K →ₗ[K] K)) pair7_rng ppe7 [2] [3, 4] crs7 1
example := C88_msmeg1_prove (sch := sch) (sch' := sch') (fT := (LinearMap.id : K →ₗ[K] K)) pair7_rng msm1_7 [2] [3, 4] msm1_7_msg.xcoms msm1_7_msg.ycoms crs7 1
example := C88_msmeg1_commit_and_prove (sch := sch) (sch' := sch') (fT := (LinearMap.id : K →ₗ[K] K)) pair7_rng msm1_7 [2] [3, 4] crs7 1
example := C88_msmeg1_verify (sch := s) (sch' := s') scale7_hom msm1_7 msm1_7_msg crs7
example := C88_msmeg2_prove (sch := sch) (sch' := sch') (fT := (LinearMap.id : K →ₗ[K] K)) pair7_rng msm2_7 [2] [3, 4] msm2_7_msg.xcoms msm2_7_msg.ycoms crs7 1
example := C88_msmeg2_commit_and_prove (sch := sch) (sch' := sch') (fT := (LinearMap.id : K →ₗ[K] K)) pair7_rng msm2_7 [2] [3, 4] crs7 1
example := C88_msmeg2_verify (sch := s) (sch' := s') scale7_hom msm2_7 msm2_7_msg crs7
example := C88_quad_prove (sch := sch) (sch' := sch') (fT := (LinearMap.id : K →ₗ[K] K)) pair7_rng quad7 [2] [3, 4] quad7_msg.xcoms quad7_msg.ycoms crs7 1
example := C88_quad_commit_and_prove (sch := sch) (sch' := sch') (fT := (LinearMap.id : K →ₗ[K] K)) pair7_rng quad7 [2] [3, 4] crs7 1
example := C88_quad_verify (sch := s) (sch' := s') scale7_hom quad7 quad7_msg crs7
example := C88_holds scale7_hom

end

end example7

end GS
