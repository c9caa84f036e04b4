import Verif.Spec.Mirror
import Verif.Spec.Hiding
import Verif.Props.Convert
import Verif.Props.Example
import Verif.Lemmas.SimKey
import Mathlib.LinearAlgebra.BilinearMap

/-!
# C84: exchanging the two source groups

`CRS.mirror`, `CProof.mirror` are in `Verif/Spec/Mirror.lean`, `SameViews` in `Verif/Spec/Hiding.lean`.
-/

set_option linter.unusedSectionVars false

namespace GS
variable {F G1 G2 GT : Type} [Field F] [AddCommGroup G1] [Module F G1] [AddCommGroup G2] [Module F G2]
  [AddCommGroup GT] [Module F GT] {e : G1 →ₗ[F] G2 →ₗ[F] GT} {crs : CRS G1 G2 GT} {m n : Nat}

section verify

/-- The transposed matrix. -/
def ComT.mirror : ComT GT ≃ₗ[F] ComT GT where
  toFun t := ⟨t.t0, t.t2, t.t1, t.t3⟩
  invFun t := ⟨t.t0, t.t2, t.t1, t.t3⟩
  map_add' x y := by ext <;> rfl
  map_smul' k x := by ext <;> rfl
  left_inv _ := rfl
  right_inv _ := rfl

theorem tensor_flip (c : Com G1) (d : Com G2) : tensor e.flip d c = ComT.mirror (F := F) (tensor e c d) := rfl

theorem sum_tensor_flip (c : List (Com G1)) (d : List (Com G2)) :
    (List.zipWith (tensor e.flip) d c).sum = ComT.mirror (F := F) (List.zipWith (tensor e) c d).sum := by
  induction c generalizing d with
  | nil => simp
  | cons c0 c ih => cases d with
    | nil => simp
    | cons d0 d => simp only [List.zipWith_cons_cons, List.sum_cons, ih, tensor_flip, map_add]

theorem gsEquation_flip (a : Fin n → Com G1) (c : Fin m → Com G1) (b : Fin m → Com G2) (d : Fin n → Com G2)
    (γ : _root_.Matrix (Fin m) (Fin n) F) (t : ComT GT) (u θ : List (Com G1)) (v π : List (Com G2)) :
    gsEquation e.flip (List.ofFn b) (List.ofFn d) (List.ofFn a) (List.ofFn c) (rows γ.transpose) (ComT.mirror (F := F) t) v θ π u ↔
    gsEquation e (List.ofFn a) (List.ofFn c) (List.ofFn b) (List.ofFn d) (rows γ) t u π θ v := by
  have h : equLhs (tensor e.flip) (List.ofFn b) (List.ofFn d) (List.ofFn a) (List.ofFn c) (rows γ.transpose) =
      ComT.mirror (F := F) (equLhs (tensor e) (List.ofFn a) (List.ofFn c) (List.ofFn b) (List.ofFn d) (rows γ)) := by
    have h1 := equLhs_ofFn (F := F) (tensor e.flip) b d a c γ.transpose
    have h2 := equLhs_ofFn (F := F) (tensor e) a c b d γ
    refine h1.trans ((congrArg (ComT.mirror (F := F)) h2).trans ?_).symm
    simp only [map_add, map_sum, map_smul, tensor_flip, _root_.Matrix.transpose_apply]
    rw [Finset.sum_comm (f := fun i j => γ i j • ComT.mirror (F := F) (tensor e (c i) (d j)))]
    abel
  simp only [gsEquation]
  rw [h, sum_tensor_flip u π, sum_tensor_flip θ v, add_right_comm, ← map_add, ← map_add,
    (ComT.mirror (F := F)).injective.eq_iff]

theorem rows_length (γ : _root_.Matrix (Fin m) (Fin n) F) : (rows γ).length = m := by simp [rows]
theorem rows_cols (γ : _root_.Matrix (Fin m) (Fin n) F) : ∀ r ∈ rows γ, r.length = n := by simp [rows, List.mem_ofFn]

variable [DecidableEq GT] {sch sch' : Scheduler}

/-- C84, `verify`: a PPE equation becomes a PPE equation. -/
theorem C84_ppe_verify (hm : 0 < m) (hn : 0 < n) (a : Fin n → G1) (b : Fin m → G2) (γ : _root_.Matrix (Fin m) (Fin n) F)
    (t : GT) (cp : CProof F G1 G2) :
    SameOutcome (PPE.verify e sch ⟨List.ofFn a, List.ofFn b, rows γ, t⟩ cp crs)
      (PPE.verify e.flip sch' ⟨List.ofFn b, List.ofFn a, rows γ.transpose, t⟩ cp.mirror crs.mirror) := by
  obtain ⟨xc, yc, pfs⟩ := cp
  have hdom : (PPE.verify e sch ⟨List.ofFn a, List.ofFn b, rows γ, t⟩ ⟨xc, yc, pfs⟩ crs).Ok ↔
      (PPE.verify e.flip sch' ⟨List.ofFn b, List.ofFn a, rows γ.transpose, t⟩ (CProof.mirror ⟨xc, yc, pfs⟩) crs.mirror).Ok := by
    rw [C37_ppe, C37_ppe]
    simp only [CProof.mirror, CRS.mirror, List.length_ofFn]
    have hg : ∀ m' n', n = n' → m = m' → (GammaDom m' n' (rows γ) ∧ GammaDom n' m' (rows γ.transpose)) := by
      rintro _ _ rfl rfl
      exact ⟨(gammaDom_of_dims (rows_length _) (rows_cols _)).mpr (.inr hn),
        (gammaDom_of_dims (rows_length _) (rows_cols _)).mpr (.inr hm)⟩
    constructor
    · rintro ⟨pf, rfl, h1, h2, h3, -, h4⟩
      refine ⟨pf.mirror, rfl, by simp [EquProof.mirror, h1, EquType.mirror], h3, h2, (hg _ _ h2 h3).2, ?_⟩
      simp only [EquProof.mirror]
      tauto
    · rintro ⟨pf', hpf, h1, h2, h3, -, h4⟩
      obtain ⟨pf, rfl, rfl⟩ := List.map_eq_singleton_iff.mp hpf
      refine ⟨pf, rfl, ?_, h3, h2, (hg _ _ h3 h2).1, ?_⟩
      · simp only [EquProof.mirror, EquType.mirror] at h1
        split at h1 <;> simp_all
      · simp only [EquProof.mirror] at h4
        tauto
  rcases pfs with _ | ⟨pf, _ | ⟨pf', pfs⟩⟩
  · refine sameOutcome_of_bool hdom ?_
    constructor <;> intro h
    · have := (C37_ppe _ _ _ _ _).mp ⟨_, h⟩
      simp at this
    · have := (C37_ppe _ _ _ _ _).mp ⟨_, h⟩
      simp [CProof.mirror] at this
  · refine sameOutcome_of_equation
      (P := PPE.Equation e ⟨List.ofFn a, List.ofFn b, rows γ, t⟩ crs xc.coms yc.coms pf)
      (Q := PPE.Equation e.flip ⟨List.ofFn b, List.ofFn a, rows γ.transpose, t⟩ crs.mirror yc.coms xc.coms pf.mirror) hdom
      (fun r hr => ?_) (fun r hr => ?_) fun hok => ?_
    · obtain ⟨_, hpf, h⟩ := C53_ppe _ _ _ _ hr
      cases hpf
      exact h
    · obtain ⟨_, hpf, h⟩ := C53_ppe _ _ _ _ hr
      cases hpf
      exact h
    obtain ⟨_, -, -, h1, h2, -⟩ := (C37_ppe _ _ _ _ _).mp hok
    obtain ⟨c, hc⟩ := exists_ofFn xc.coms (n := m) (by simpa using h2.symm)
    obtain ⟨d, hd⟩ := exists_ofFn yc.coms (n := n) (by simpa using h1.symm)
    simp only [PPE.Equation, CRS.mirror, EquProof.mirror, List.map_ofFn, hc, hd]
    exact (gsEquation_flip (emb ∘ a) c (emb ∘ b) d γ ⟨0, 0, 0, t⟩ crs.u pf.theta crs.v pf.pi).symm
  · refine sameOutcome_of_bool hdom ?_
    constructor <;> intro h
    · have := (C37_ppe _ _ _ _ _).mp ⟨_, h⟩
      simp at this
    · have := (C37_ppe _ _ _ _ _).mp ⟨_, h⟩
      simp [CProof.mirror] at this

/-- C84, `verify`: an MSMEG1 equation becomes an MSMEG2 equation. -/
theorem C84_msmeg1_verify (hm : 0 < m) (hn : 0 < n) (a : Fin n → G1) (b : Fin m → F) (γ : _root_.Matrix (Fin m) (Fin n) F)
    (t : G1) (cp : CProof F G1 G2) :
    SameOutcome (MSMEG1.verify e sch ⟨List.ofFn a, List.ofFn b, rows γ, t⟩ cp crs)
      (MSMEG2.verify e.flip sch' ⟨List.ofFn b, List.ofFn a, rows γ.transpose, t⟩ cp.mirror crs.mirror) := by
  obtain ⟨xc, yc, pfs⟩ := cp
  have hdom : (MSMEG1.verify e sch ⟨List.ofFn a, List.ofFn b, rows γ, t⟩ ⟨xc, yc, pfs⟩ crs).Ok ↔
      (MSMEG2.verify e.flip sch' ⟨List.ofFn b, List.ofFn a, rows γ.transpose, t⟩ (CProof.mirror ⟨xc, yc, pfs⟩) crs.mirror).Ok := by
    rw [C37_msmeg1, C37_msmeg2]
    simp only [CProof.mirror, CRS.mirror, List.length_ofFn]
    have hg : ∀ m' n', n = n' → m = m' → (GammaDom m' n' (rows γ) ∧ GammaDom n' m' (rows γ.transpose)) := by
      rintro _ _ rfl rfl
      exact ⟨(gammaDom_of_dims (rows_length _) (rows_cols _)).mpr (.inr hn),
        (gammaDom_of_dims (rows_length _) (rows_cols _)).mpr (.inr hm)⟩
    constructor
    · rintro ⟨pf, rfl, h1, h2, h3, -, h4⟩
      refine ⟨pf.mirror, rfl, by simp [EquProof.mirror, h1, EquType.mirror], h3, h2, (hg _ _ h2 h3).2, ?_⟩
      simp only [EquProof.mirror]
      tauto
    · rintro ⟨pf', hpf, h1, h2, h3, -, h4⟩
      obtain ⟨pf, rfl, rfl⟩ := List.map_eq_singleton_iff.mp hpf
      refine ⟨pf, rfl, ?_, h3, h2, (hg _ _ h3 h2).1, ?_⟩
      · simp only [EquProof.mirror, EquType.mirror] at h1
        split at h1 <;> simp_all
      · simp only [EquProof.mirror] at h4
        tauto
  rcases pfs with _ | ⟨pf, _ | ⟨pf', pfs⟩⟩
  · refine sameOutcome_of_bool hdom ?_
    constructor <;> intro h
    · have := (C37_msmeg1 _ _ _ _ _).mp ⟨_, h⟩
      simp at this
    · have := (C37_msmeg2 _ _ _ _ _).mp ⟨_, h⟩
      simp [CProof.mirror] at this
  · refine sameOutcome_of_equation
      (P := MSMEG1.Equation e ⟨List.ofFn a, List.ofFn b, rows γ, t⟩ crs xc.coms yc.coms pf)
      (Q := MSMEG2.Equation e.flip ⟨List.ofFn b, List.ofFn a, rows γ.transpose, t⟩ crs.mirror yc.coms xc.coms pf.mirror) hdom
      (fun r hr => ?_) (fun r hr => ?_) fun hok => ?_
    · obtain ⟨_, hpf, h⟩ := C53_msmeg1 _ _ _ _ hr
      cases hpf
      exact h
    · obtain ⟨_, hpf, h⟩ := C53_msmeg2 _ _ _ _ hr
      cases hpf
      exact h
    obtain ⟨_, -, -, h1, h2, -⟩ := (C37_msmeg1 _ _ _ _ _).mp hok
    obtain ⟨c, hc⟩ := exists_ofFn xc.coms (n := m) (by simpa using h2.symm)
    obtain ⟨d, hd⟩ := exists_ofFn yc.coms (n := n) (by simpa using h1.symm)
    obtain ⟨_, hp, -, -, -, -, -, hth, hv⟩ := (C37_msmeg1 _ _ _ _ _).mp hok
    cases hp
    obtain ⟨q0, hq⟩ := exists_get0 hth
    obtain ⟨v1, hv1⟩ : ∃ v1, crs.v[1]? = some v1 := ⟨_, List.getElem?_eq_getElem hv⟩
    obtain ⟨v0, v', hvv⟩ := cons2_of_get hv1
    have hv0 : crs.v[0]? = some v0 := by simp [hvv]
    rw [MSMEG1.equation_iff hv0 hv1 hq, MSMEG2.equation_iff (crs := crs.mirror) (pf := pf.mirror) hv0 hv1 hq]
    simp only [CRS.mirror, EquProof.mirror, List.map_ofFn, hc, hd]
    exact (gsEquation_flip (emb ∘ a) c _ d γ _ crs.u [q0] [v0] pf.pi).symm
  · refine sameOutcome_of_bool hdom ?_
    constructor <;> intro h
    · have := (C37_msmeg1 _ _ _ _ _).mp ⟨_, h⟩
      simp at this
    · have := (C37_msmeg2 _ _ _ _ _).mp ⟨_, h⟩
      simp [CProof.mirror] at this

/-- C84, `verify`: an MSMEG2 equation becomes an MSMEG1 equation. -/
theorem C84_msmeg2_verify (hm : 0 < m) (hn : 0 < n) (a : Fin n → F) (b : Fin m → G2) (γ : _root_.Matrix (Fin m) (Fin n) F)
    (t : G2) (cp : CProof F G1 G2) :
    SameOutcome (MSMEG2.verify e sch ⟨List.ofFn a, List.ofFn b, rows γ, t⟩ cp crs)
      (MSMEG1.verify e.flip sch' ⟨List.ofFn b, List.ofFn a, rows γ.transpose, t⟩ cp.mirror crs.mirror) := by
  obtain ⟨xc, yc, pfs⟩ := cp
  have hdom : (MSMEG2.verify e sch ⟨List.ofFn a, List.ofFn b, rows γ, t⟩ ⟨xc, yc, pfs⟩ crs).Ok ↔
      (MSMEG1.verify e.flip sch' ⟨List.ofFn b, List.ofFn a, rows γ.transpose, t⟩ (CProof.mirror ⟨xc, yc, pfs⟩) crs.mirror).Ok := by
    rw [C37_msmeg2, C37_msmeg1]
    simp only [CProof.mirror, CRS.mirror, List.length_ofFn]
    have hg : ∀ m' n', n = n' → m = m' → (GammaDom m' n' (rows γ) ∧ GammaDom n' m' (rows γ.transpose)) := by
      rintro _ _ rfl rfl
      exact ⟨(gammaDom_of_dims (rows_length _) (rows_cols _)).mpr (.inr hn),
        (gammaDom_of_dims (rows_length _) (rows_cols _)).mpr (.inr hm)⟩
    constructor
    · rintro ⟨pf, rfl, h1, h2, h3, -, h4⟩
      refine ⟨pf.mirror, rfl, by simp [EquProof.mirror, h1, EquType.mirror], h3, h2, (hg _ _ h2 h3).2, ?_⟩
      simp only [EquProof.mirror]
      tauto
    · rintro ⟨pf', hpf, h1, h2, h3, -, h4⟩
      obtain ⟨pf, rfl, rfl⟩ := List.map_eq_singleton_iff.mp hpf
      refine ⟨pf, rfl, ?_, h3, h2, (hg _ _ h3 h2).1, ?_⟩
      · simp only [EquProof.mirror, EquType.mirror] at h1
        split at h1 <;> simp_all
      · simp only [EquProof.mirror] at h4
        tauto
  rcases pfs with _ | ⟨pf, _ | ⟨pf', pfs⟩⟩
  · refine sameOutcome_of_bool hdom ?_
    constructor <;> intro h
    · have := (C37_msmeg2 _ _ _ _ _).mp ⟨_, h⟩
      simp at this
    · have := (C37_msmeg1 _ _ _ _ _).mp ⟨_, h⟩
      simp [CProof.mirror] at this
  · refine sameOutcome_of_equation
      (P := MSMEG2.Equation e ⟨List.ofFn a, List.ofFn b, rows γ, t⟩ crs xc.coms yc.coms pf)
      (Q := MSMEG1.Equation e.flip ⟨List.ofFn b, List.ofFn a, rows γ.transpose, t⟩ crs.mirror yc.coms xc.coms pf.mirror) hdom
      (fun r hr => ?_) (fun r hr => ?_) fun hok => ?_
    · obtain ⟨_, hpf, h⟩ := C53_msmeg2 _ _ _ _ hr
      cases hpf
      exact h
    · obtain ⟨_, hpf, h⟩ := C53_msmeg1 _ _ _ _ hr
      cases hpf
      exact h
    obtain ⟨_, -, -, h1, h2, -⟩ := (C37_msmeg2 _ _ _ _ _).mp hok
    obtain ⟨c, hc⟩ := exists_ofFn xc.coms (n := m) (by simpa using h2.symm)
    obtain ⟨d, hd⟩ := exists_ofFn yc.coms (n := n) (by simpa using h1.symm)
    obtain ⟨_, hp, -, -, -, -, hpi, hu, -⟩ := (C37_msmeg2 _ _ _ _ _).mp hok
    cases hp
    obtain ⟨p0, hq⟩ := exists_get0 hpi
    obtain ⟨u1, hu1⟩ : ∃ u1, crs.u[1]? = some u1 := ⟨_, List.getElem?_eq_getElem hu⟩
    obtain ⟨u0, u', huu⟩ := cons2_of_get hu1
    have hu0 : crs.u[0]? = some u0 := by simp [huu]
    rw [MSMEG2.equation_iff hu0 hu1 hq, MSMEG1.equation_iff (crs := crs.mirror) (pf := pf.mirror) hu0 hu1 hq]
    simp only [CRS.mirror, EquProof.mirror, List.map_ofFn, hc, hd]
    exact (gsEquation_flip _ c (emb ∘ b) d γ _ [u0] pf.theta crs.v [p0]).symm
  · refine sameOutcome_of_bool hdom ?_
    constructor <;> intro h
    · have := (C37_msmeg2 _ _ _ _ _).mp ⟨_, h⟩
      simp at this
    · have := (C37_msmeg1 _ _ _ _ _).mp ⟨_, h⟩
      simp [CProof.mirror] at this

/-- C84, `verify`: a quadratic equation becomes a quadratic equation. -/
theorem C84_quad_verify (hm : 0 < m) (hn : 0 < n) (a : Fin n → F) (b : Fin m → F) (γ : _root_.Matrix (Fin m) (Fin n) F)
    (t : F) (cp : CProof F G1 G2) :
    SameOutcome (QuadEqu.verify e sch ⟨List.ofFn a, List.ofFn b, rows γ, t⟩ cp crs)
      (QuadEqu.verify e.flip sch' ⟨List.ofFn b, List.ofFn a, rows γ.transpose, t⟩ cp.mirror crs.mirror) := by
  obtain ⟨xc, yc, pfs⟩ := cp
  have hdom : (QuadEqu.verify e sch ⟨List.ofFn a, List.ofFn b, rows γ, t⟩ ⟨xc, yc, pfs⟩ crs).Ok ↔
      (QuadEqu.verify e.flip sch' ⟨List.ofFn b, List.ofFn a, rows γ.transpose, t⟩ (CProof.mirror ⟨xc, yc, pfs⟩) crs.mirror).Ok := by
    rw [C37_quad, C37_quad]
    simp only [CProof.mirror, CRS.mirror, List.length_ofFn]
    have hg : ∀ m' n', n = n' → m = m' → (GammaDom m' n' (rows γ) ∧ GammaDom n' m' (rows γ.transpose)) := by
      rintro _ _ rfl rfl
      exact ⟨(gammaDom_of_dims (rows_length _) (rows_cols _)).mpr (.inr hn),
        (gammaDom_of_dims (rows_length _) (rows_cols _)).mpr (.inr hm)⟩
    constructor
    · rintro ⟨pf, rfl, h1, h2, h3, -, h4⟩
      refine ⟨pf.mirror, rfl, by simp [EquProof.mirror, h1, EquType.mirror], h3, h2, (hg _ _ h2 h3).2, ?_⟩
      simp only [EquProof.mirror]
      tauto
    · rintro ⟨pf', hpf, h1, h2, h3, -, h4⟩
      obtain ⟨pf, rfl, rfl⟩ := List.map_eq_singleton_iff.mp hpf
      refine ⟨pf, rfl, ?_, h3, h2, (hg _ _ h3 h2).1, ?_⟩
      · simp only [EquProof.mirror, EquType.mirror] at h1
        split at h1 <;> simp_all
      · simp only [EquProof.mirror] at h4
        tauto
  rcases pfs with _ | ⟨pf, _ | ⟨pf', pfs⟩⟩
  · refine sameOutcome_of_bool hdom ?_
    constructor <;> intro h
    · have := (C37_quad _ _ _ _ _).mp ⟨_, h⟩
      simp at this
    · have := (C37_quad _ _ _ _ _).mp ⟨_, h⟩
      simp [CProof.mirror] at this
  · refine sameOutcome_of_equation
      (P := QuadEqu.Equation e ⟨List.ofFn a, List.ofFn b, rows γ, t⟩ crs xc.coms yc.coms pf)
      (Q := QuadEqu.Equation e.flip ⟨List.ofFn b, List.ofFn a, rows γ.transpose, t⟩ crs.mirror yc.coms xc.coms pf.mirror) hdom
      (fun r hr => ?_) (fun r hr => ?_) fun hok => ?_
    · obtain ⟨_, hpf, h⟩ := C53_quad _ _ _ _ hr
      cases hpf
      exact h
    · obtain ⟨_, hpf, h⟩ := C53_quad _ _ _ _ hr
      cases hpf
      exact h
    obtain ⟨_, -, -, h1, h2, -⟩ := (C37_quad _ _ _ _ _).mp hok
    obtain ⟨c, hc⟩ := exists_ofFn xc.coms (n := m) (by simpa using h2.symm)
    obtain ⟨d, hd⟩ := exists_ofFn yc.coms (n := n) (by simpa using h1.symm)
    obtain ⟨_, hp, -, -, -, -, hpi, hu, hth, hv⟩ := (C37_quad _ _ _ _ _).mp hok
    cases hp
    obtain ⟨p0, hp⟩ := exists_get0 hpi
    obtain ⟨q0, hq⟩ := exists_get0 hth
    obtain ⟨u1, hu1⟩ : ∃ u1, crs.u[1]? = some u1 := ⟨_, List.getElem?_eq_getElem hu⟩
    obtain ⟨u0, u', huu⟩ := cons2_of_get hu1
    have hu0 : crs.u[0]? = some u0 := by simp [huu]
    obtain ⟨v1, hv1⟩ : ∃ v1, crs.v[1]? = some v1 := ⟨_, List.getElem?_eq_getElem hv⟩
    obtain ⟨v0, v', hvv⟩ := cons2_of_get hv1
    have hv0 : crs.v[0]? = some v0 := by simp [hvv]
    rw [QuadEqu.equation_iff hu0 hu1 hp hv0 hv1 hq,
      QuadEqu.equation_iff (crs := crs.mirror) (pf := pf.mirror) hv0 hv1 hq hu0 hu1 hp]
    simp only [CRS.mirror, EquProof.mirror, List.map_ofFn, hc, hd]
    exact (gsEquation_flip _ c _ d γ _ [u0] [q0] [v0] [p0]).symm
  · refine sameOutcome_of_bool hdom ?_
    constructor <;> intro h
    · have := (C37_quad _ _ _ _ _).mp ⟨_, h⟩
      simp at this
    · have := (C37_quad _ _ _ _ _).mp ⟨_, h⟩
      simp [CProof.mirror] at this

end verify

section prove

/-- The randomness of the proof with exchanged sides. -/
def mirrorRands {p q : Nat} (γ : _root_.Matrix (Fin m) (Fin n) F) : Rands F m n p q ≃ Rands F n m q p where
  toFun r := (r.2.1, r.1, fun k l => (∑ j, (∑ i, r.1 i k * γ i j) * r.2.1 j l) - r.2.2 l k)
  invFun r := (r.2.1, r.1, fun l k => (∑ j, (∑ i, r.2.1 i k * γ i j) * r.1 j l) - r.2.2 k l)
  left_inv r := by simp
  right_inv r := by simp

variable {A B : Type} [AddCommGroup A] [Module F A] [AddCommGroup B] [Module F B] {p q : Nat}

theorem thetaVal_mirror (b : Fin m → B) (y : Fin n → B) (γ : _root_.Matrix (Fin m) (Fin n) F) (R : Fin m → Fin p → F)
    (S : Fin n → Fin q → F) (T : Fin q → Fin p → F) (v : Fin q → B) :
    thetaVal b y γ.transpose R (fun k l => (∑ j, (∑ i, R i k * γ i j) * S j l) - T l k) v = piVal b y γ R S T v := by
  funext k
  simp only [thetaVal, piVal, _root_.Matrix.transpose_apply, sub_eq_add_neg]

theorem piVal_mirror (a : Fin n → A) (x : Fin m → A) (γ : _root_.Matrix (Fin m) (Fin n) F) (R : Fin m → Fin p → F)
    (S : Fin n → Fin q → F) (T : Fin q → Fin p → F) (u : Fin p → A) :
    piVal a x γ.transpose S R (fun k l => (∑ j, (∑ i, R i k * γ i j) * S j l) - T l k) u = thetaVal a x γ S T u := by
  funext l
  simp only [thetaVal, piVal, _root_.Matrix.transpose_apply]
  congr 1
  refine Finset.sum_congr rfl fun k _ => ?_
  have : (∑ i, (∑ j, S j l * γ i j) * R i k) = ∑ j, (∑ i, R i k * γ i j) * S j l := by
    simp only [Finset.sum_mul]
    rw [Finset.sum_comm]
    refine Finset.sum_congr rfl fun j _ => Finset.sum_congr rfl fun i _ => ?_
    ring
  rw [this]
  congr 1
  ring

theorem pub_mirror (ty : EquType) (u : Fin p → Com G1) (v : Fin q → Com G2) (a : Fin n → Com G1) (x : Fin m → Com G1)
    (b : Fin m → Com G2) (y : Fin n → Com G2) (γ : _root_.Matrix (Fin m) (Fin n) F) (r : Rands F m n p q) :
    pub ty (viewFn u v a x b y γ r) =
      mirrorView (pub ty.mirror (viewFn v u b y a x γ.transpose (mirrorRands γ r))) := by
  obtain ⟨R, S, T⟩ := r
  have hty : ty.mirror.mirror = ty := by cases ty <;> rfl
  simp only [pub, viewFn, mirrorRands, mirrorView, mirrorElements, Equiv.coe_fn_mk, List.map_cons, List.map_nil,
    thetaVal_mirror, piVal_mirror, hty]

theorem sameViews_mirror {N : Nat} (hN : N = m * p + n * q + q * p) {run : List F → Res (CProof F G1 G2 × List F)}
    {run' : List F → Res (CProof F G2 G1 × List F)} {g : Rands F m n p q → View G1 G2} {g' : Rands F n m q p → View G2 G1}
    (γ : _root_.Matrix (Fin m) (Fin n) F)
    (h : ∀ t r, List.ofFn t = flat r → viewOn (N := N) run t = .ok (g r))
    {N' : Nat} (hN' : N' = N) (h' : ∀ t r, List.ofFn t = flat r → viewOn (N := N') run' t = .ok (g' r))
    (hg : ∀ r, g r = mirrorView (g' (mirrorRands γ r))) :
    SameViews (N := N) (viewOn run) fun t => (viewOn run' t).map mirrorView := by
  subst hN'
  obtain ⟨E, hE⟩ := exists_tapeEquiv (F := F) (m := m) (n := n) (p := p) (q := q) hN
  obtain ⟨E', hE'⟩ := exists_tapeEquiv (F := F) (m := n) (n := m) (p := q) (q := p) (N := N') (by
    rw [hN, Nat.add_comm (n * q), Nat.mul_comm p q])
  refine ⟨(E.symm.trans (mirrorRands γ)).trans E', fun t => ⟨g (E.symm t), h _ _ ?_, ?_⟩⟩
  · rw [← hE, E.apply_symm_apply]
  · simp only [Equiv.trans_apply]
    rw [h' _ _ (hE' _), hg]
    rfl

/-- The random matrix of the proof with exchanged sides. -/
def mirrorT (γ : _root_.Matrix (Fin m) (Fin n) F) (R : Fin m → Fin p → F) (S : Fin n → Fin q → F) :
    (Fin q → Fin p → F) ≃ (Fin p → Fin q → F) where
  toFun T := fun k l => (∑ j, (∑ i, R i k * γ i j) * S j l) - T l k
  invFun T := fun l k => (∑ j, (∑ i, R i k * γ i j) * S j l) - T k l
  left_inv T := by simp
  right_inv T := by simp

theorem sameProofs_mirror {N : Nat} (hN : N = q * p) {run : List F → Res (EquProof F G1 G2 × List F)}
    {run' : List F → Res (EquProof F G2 G1 × List F)} {ty : EquType} (u : Fin p → Com G1) (v : Fin q → Com G2)
    (a : Fin n → Com G1) (x : Fin m → Com G1) (b : Fin m → Com G2) (y : Fin n → Com G2)
    (γ : _root_.Matrix (Fin m) (Fin n) F) (R : Fin m → Fin p → F) (S : Fin n → Fin q → F)
    (h : ∀ T : Fin q → Fin p → F, run (matOf T).flatten =
      .ok (⟨List.ofFn (piVal b y γ R S T v), List.ofFn (thetaVal a x γ S T u), ty, matOf T⟩, []))
    (h' : ∀ T : Fin p → Fin q → F, run' (matOf T).flatten =
      .ok (⟨List.ofFn (piVal a x γ.transpose S R T u), List.ofFn (thetaVal b y γ.transpose R T v), ty.mirror, matOf T⟩, [])) :
    SameViews (N := N) (proofOn run) fun t => (proofOn run' t).map mirrorElements := by
  have hE : ∀ q p, N = q * p → ∃ E : (Fin q → Fin p → F) ≃ (Fin N → F), ∀ T, List.ofFn (E T) = (matOf T).flatten := by
    intro q p hN
    have h : ∀ T : Fin q → Fin p → F, ∃ t : Fin N → F, (matOf T).flatten = List.ofFn t := fun T =>
      exists_ofFn _ (by rw [flatten_matOf_length, hN])
    choose g hg using h
    refine ⟨Equiv.ofBijective g ⟨fun r r' hr => flatten_matOf_inj (by rw [hg, hg, hr]), fun t => ?_⟩, fun r => (hg r).symm⟩
    obtain ⟨r, hr⟩ := exists_flatten (m := q) (n := p) (l := List.ofFn t) (by simp [hN])
    exact ⟨r, List.ofFn_injective (by rw [← hg, hr])⟩
  obtain ⟨E, hE1⟩ := hE q p hN
  obtain ⟨E', hE2⟩ := hE p q (by rw [hN, Nat.mul_comm])
  refine ⟨(E.symm.trans (mirrorT γ R S)).trans E', fun t => ⟨(List.ofFn (piVal b y γ R S (E.symm t) v),
    List.ofFn (thetaVal a x γ S (E.symm t) u), ty), ?_, ?_⟩⟩
  · have : List.ofFn t = (matOf (E.symm t)).flatten := by rw [← hE1, E.apply_symm_apply]
    rw [proofOn, this, h]
    rfl
  · have hty : ty.mirror.mirror = ty := by cases ty <;> rfl
    simp only [Equiv.trans_apply]
    rw [proofOn, hE2, h']
    simp only [mirrorT, Except.map, mirrorElements, Equiv.coe_fn_mk, thetaVal_mirror, piVal_mirror, hty]

variable {sch sch' : Nat → Scheduler}

/-- C84, `prove`: the proofs of the exchanged equation are the exchanged proofs, equally distributed. -/
theorem C84_ppe_prove (hm : 0 < m) (hn : 0 < n) (a : Fin n → G1) (b : Fin m → G2) (γ : _root_.Matrix (Fin m) (Fin n) F)
    (t : GT) (hu : crs.u.length = 2) (hv : crs.v.length = 2) (x : Fin m → G1) (y : Fin n → G2) (xc : Commit F G1) (yc : Commit F G2)
    (hx : Rect m 2 xc.rand) (hy : Rect n 2 yc.rand) :
    SameViews (N := 4)
      (proofOn fun rng => PPE.prove sch ⟨List.ofFn a, List.ofFn b, rows γ, t⟩ (List.ofFn x) (List.ofFn y) xc yc crs rng)
      (fun r => (proofOn (fun rng => PPE.prove sch' ⟨List.ofFn b, List.ofFn a, rows γ.transpose, t⟩
        (List.ofFn y) (List.ofFn x) yc xc crs.mirror rng) r).map mirrorElements) := by
  obtain ⟨u0, u1, hu⟩ := List.length_eq_two.mp hu
  obtain ⟨v0, v1, hv⟩ := List.length_eq_two.mp hv
  obtain ⟨R, hR⟩ := rect_iff.mp hx
  obtain ⟨S, hS⟩ := rect_iff.mp hy
  refine sameProofs_mirror (p := 2) (q := 2) rfl ![u0, u1] ![v0, v1] (fun j => i1 (F := F) (a j)) (fun i => i1 (F := F) (x i))
    (fun i => i2 (F := F) (b i)) (fun j => i2 (F := F) (y j)) γ R S (ty := .PairingProduct) (fun T => ?_) (fun T => ?_)
  · exact PPE.prove_closed hm hn rfl rfl rfl x y hR hS hu hv (T := T) (by simp [matOf, List.ofFn_succ, d1, Rng.randF])
      (by simp [matOf, List.ofFn_succ, d1, Rng.randF])
  · exact PPE.prove_closed (crs := crs.mirror) hn hm rfl rfl rfl y x hS hR hv hu (T := T)
      (by simp [matOf, List.ofFn_succ, d1, Rng.randF]) (by simp [matOf, List.ofFn_succ, d1, Rng.randF])

/-- C84, `commit_and_prove`: what a verifier sees is the exchanged view, equally distributed. -/
theorem C84_ppe_commit_and_prove (hm : 0 < m) (hn : 0 < n) (a : Fin n → G1) (b : Fin m → G2)
    (γ : _root_.Matrix (Fin m) (Fin n) F) (t : GT) (hu : crs.u.length = 2) (hv : crs.v.length = 2) (x : Fin m → G1) (y : Fin n → G2) :
    SameViews (N := 2 * m + 2 * n + 4)
      (viewOn fun rng => PPE.commitAndProve sch ⟨List.ofFn a, List.ofFn b, rows γ, t⟩ (List.ofFn x) (List.ofFn y) crs rng)
      (fun r => (viewOn (fun rng => PPE.commitAndProve sch' ⟨List.ofFn b, List.ofFn a, rows γ.transpose, t⟩
        (List.ofFn y) (List.ofFn x) crs.mirror rng) r).map mirrorView) := by
  obtain ⟨u0, u1, hu⟩ := List.length_eq_two.mp hu
  obtain ⟨v0, v1, hv⟩ := List.length_eq_two.mp hv
  exact sameViews_mirror (p := 2) (q := 2) (by omega) γ (PPE.view_eq hm hn rfl rfl rfl x y hu hv) (by omega)
    (PPE.view_eq (crs := crs.mirror) hn hm rfl rfl rfl y x hv hu) fun r => pub_mirror _ _ _ _ _ _ _ γ r

/-- C84, `prove`: the proofs of the exchanged equation are the exchanged proofs, equally distributed. -/
theorem C84_msmeg1_prove (hm : 0 < m) (hn : 0 < n) (a : Fin n → G1) (b : Fin m → F) (γ : _root_.Matrix (Fin m) (Fin n) F)
    (t : G1) (hu : crs.u.length = 2) (hv : 2 ≤ crs.v.length) (x : Fin m → G1) (y : Fin n → F) (xc : Commit F G1) (yc : Commit F G2)
    (hx : Rect m 2 xc.rand) (hy : Rect n 1 yc.rand) :
    SameViews (N := 2)
      (proofOn fun rng => MSMEG1.prove sch ⟨List.ofFn a, List.ofFn b, rows γ, t⟩ (List.ofFn x) (List.ofFn y) xc yc crs rng)
      (fun r => (proofOn (fun rng => MSMEG2.prove sch' ⟨List.ofFn b, List.ofFn a, rows γ.transpose, t⟩
        (List.ofFn y) (List.ofFn x) yc xc crs.mirror rng) r).map mirrorElements) := by
  obtain ⟨u0, u1, hu⟩ := List.length_eq_two.mp hu
  obtain ⟨v0, v1, v', hv⟩ := cons2_of_length hv
  obtain ⟨R, hR⟩ := rect_iff.mp hx
  obtain ⟨S, hS⟩ := rect_iff.mp hy
  refine sameProofs_mirror (p := 2) (q := 1) rfl ![u0, u1] ![v0] (fun j => i1 (F := F) (a j)) (fun i => i1 (F := F) (x i))
    (fun i => b i • (v1 + Com2.linearMap crs.g2_gen)) (fun j => y j • (v1 + Com2.linearMap crs.g2_gen)) γ R S (ty := .MultiScalarG1) (fun T => ?_) (fun T => ?_)
  · exact MSMEG1.prove_closed hm hn rfl rfl rfl x y hR hS hu hv (T := T) (by simp [matOf, List.ofFn_succ, d1, Rng.randF])
      (by simp [matOf, List.ofFn_succ, d1, Rng.randF])
  · exact MSMEG2.prove_closed (crs := crs.mirror) hn hm rfl rfl rfl y x hS hR hv hu (T := T)
      (by simp [matOf, List.ofFn_succ, d1, Rng.randF]) (by simp [matOf, List.ofFn_succ, d1, Rng.randF])

/-- C84, `commit_and_prove`: what a verifier sees is the exchanged view, equally distributed. -/
theorem C84_msmeg1_commit_and_prove (hm : 0 < m) (hn : 0 < n) (a : Fin n → G1) (b : Fin m → F)
    (γ : _root_.Matrix (Fin m) (Fin n) F) (t : G1) (hu : crs.u.length = 2) (hv : 2 ≤ crs.v.length) (x : Fin m → G1) (y : Fin n → F) :
    SameViews (N := 2 * m + n + 2)
      (viewOn fun rng => MSMEG1.commitAndProve sch ⟨List.ofFn a, List.ofFn b, rows γ, t⟩ (List.ofFn x) (List.ofFn y) crs rng)
      (fun r => (viewOn (fun rng => MSMEG2.commitAndProve sch' ⟨List.ofFn b, List.ofFn a, rows γ.transpose, t⟩
        (List.ofFn y) (List.ofFn x) crs.mirror rng) r).map mirrorView) := by
  obtain ⟨u0, u1, hu⟩ := List.length_eq_two.mp hu
  obtain ⟨v0, v1, v', hv⟩ := cons2_of_length hv
  exact sameViews_mirror (p := 2) (q := 1) (by omega) γ (MSMEG1.view_eq hm hn rfl rfl rfl x y hu hv) (by omega)
    (MSMEG2.view_eq (crs := crs.mirror) hn hm rfl rfl rfl y x hv hu) fun r => pub_mirror _ _ _ _ _ _ _ γ r

/-- C84, `prove`: the proofs of the exchanged equation are the exchanged proofs, equally distributed. -/
theorem C84_msmeg2_prove (hm : 0 < m) (hn : 0 < n) (a : Fin n → F) (b : Fin m → G2) (γ : _root_.Matrix (Fin m) (Fin n) F)
    (t : G2) (hu : 2 ≤ crs.u.length) (hv : crs.v.length = 2) (x : Fin m → F) (y : Fin n → G2) (xc : Commit F G1) (yc : Commit F G2)
    (hx : Rect m 1 xc.rand) (hy : Rect n 2 yc.rand) :
    SameViews (N := 2)
      (proofOn fun rng => MSMEG2.prove sch ⟨List.ofFn a, List.ofFn b, rows γ, t⟩ (List.ofFn x) (List.ofFn y) xc yc crs rng)
      (fun r => (proofOn (fun rng => MSMEG1.prove sch' ⟨List.ofFn b, List.ofFn a, rows γ.transpose, t⟩
        (List.ofFn y) (List.ofFn x) yc xc crs.mirror rng) r).map mirrorElements) := by
  obtain ⟨u0, u1, u', hu⟩ := cons2_of_length hu
  obtain ⟨v0, v1, hv⟩ := List.length_eq_two.mp hv
  obtain ⟨R, hR⟩ := rect_iff.mp hx
  obtain ⟨S, hS⟩ := rect_iff.mp hy
  refine sameProofs_mirror (p := 1) (q := 2) rfl ![u0] ![v0, v1] (fun j => a j • (u1 + Com1.linearMap crs.g1_gen)) (fun i => x i • (u1 + Com1.linearMap crs.g1_gen))
    (fun i => i2 (F := F) (b i)) (fun j => i2 (F := F) (y j)) γ R S (ty := .MultiScalarG2) (fun T => ?_) (fun T => ?_)
  · exact MSMEG2.prove_closed hm hn rfl rfl rfl x y hR hS hu hv (T := T) (by simp [matOf, List.ofFn_succ, d1, Rng.randF])
      (by simp [matOf, List.ofFn_succ, d1, Rng.randF])
  · exact MSMEG1.prove_closed (crs := crs.mirror) hn hm rfl rfl rfl y x hS hR hv hu (T := T)
      (by simp [matOf, List.ofFn_succ, d1, Rng.randF]) (by simp [matOf, List.ofFn_succ, d1, Rng.randF])

/-- C84, `commit_and_prove`: what a verifier sees is the exchanged view, equally distributed. -/
theorem C84_msmeg2_commit_and_prove (hm : 0 < m) (hn : 0 < n) (a : Fin n → F) (b : Fin m → G2)
    (γ : _root_.Matrix (Fin m) (Fin n) F) (t : G2) (hu : 2 ≤ crs.u.length) (hv : crs.v.length = 2) (x : Fin m → F) (y : Fin n → G2) :
    SameViews (N := m + 2 * n + 2)
      (viewOn fun rng => MSMEG2.commitAndProve sch ⟨List.ofFn a, List.ofFn b, rows γ, t⟩ (List.ofFn x) (List.ofFn y) crs rng)
      (fun r => (viewOn (fun rng => MSMEG1.commitAndProve sch' ⟨List.ofFn b, List.ofFn a, rows γ.transpose, t⟩
        (List.ofFn y) (List.ofFn x) crs.mirror rng) r).map mirrorView) := by
  obtain ⟨u0, u1, u', hu⟩ := cons2_of_length hu
  obtain ⟨v0, v1, hv⟩ := List.length_eq_two.mp hv
  exact sameViews_mirror (p := 1) (q := 2) (by omega) γ (MSMEG2.view_eq hm hn rfl rfl rfl x y hu hv) (by omega)
    (MSMEG1.view_eq (crs := crs.mirror) hn hm rfl rfl rfl y x hv hu) fun r => pub_mirror _ _ _ _ _ _ _ γ r

/-- C84, `prove`: the proofs of the exchanged equation are the exchanged proofs, equally distributed. -/
theorem C84_quad_prove (hm : 0 < m) (hn : 0 < n) (a : Fin n → F) (b : Fin m → F) (γ : _root_.Matrix (Fin m) (Fin n) F)
    (t : F) (hu : 2 ≤ crs.u.length) (hv : 2 ≤ crs.v.length) (x : Fin m → F) (y : Fin n → F) (xc : Commit F G1) (yc : Commit F G2)
    (hx : Rect m 1 xc.rand) (hy : Rect n 1 yc.rand) :
    SameViews (N := 1)
      (proofOn fun rng => QuadEqu.prove sch ⟨List.ofFn a, List.ofFn b, rows γ, t⟩ (List.ofFn x) (List.ofFn y) xc yc crs rng)
      (fun r => (proofOn (fun rng => QuadEqu.prove sch' ⟨List.ofFn b, List.ofFn a, rows γ.transpose, t⟩
        (List.ofFn y) (List.ofFn x) yc xc crs.mirror rng) r).map mirrorElements) := by
  obtain ⟨u0, u1, u', hu⟩ := cons2_of_length hu
  obtain ⟨v0, v1, v', hv⟩ := cons2_of_length hv
  obtain ⟨R, hR⟩ := rect_iff.mp hx
  obtain ⟨S, hS⟩ := rect_iff.mp hy
  refine sameProofs_mirror (p := 1) (q := 1) rfl ![u0] ![v0] (fun j => a j • (u1 + Com1.linearMap crs.g1_gen)) (fun i => x i • (u1 + Com1.linearMap crs.g1_gen))
    (fun i => b i • (v1 + Com2.linearMap crs.g2_gen)) (fun j => y j • (v1 + Com2.linearMap crs.g2_gen)) γ R S (ty := .Quadratic) (fun T => ?_) (fun T => ?_)
  · exact QuadEqu.prove_closed hm hn rfl rfl rfl x y hR hS hu hv (T := T) (by simp [matOf, List.ofFn_succ, d1, Rng.randF])
      (by simp [matOf, List.ofFn_succ, d1, Rng.randF])
  · exact QuadEqu.prove_closed (crs := crs.mirror) hn hm rfl rfl rfl y x hS hR hv hu (T := T)
      (by simp [matOf, List.ofFn_succ, d1, Rng.randF]) (by simp [matOf, List.ofFn_succ, d1, Rng.randF])

/-- C84, `commit_and_prove`: what a verifier sees is the exchanged view, equally distributed. -/
theorem C84_quad_commit_and_prove (hm : 0 < m) (hn : 0 < n) (a : Fin n → F) (b : Fin m → F)
    (γ : _root_.Matrix (Fin m) (Fin n) F) (t : F) (hu : 2 ≤ crs.u.length) (hv : 2 ≤ crs.v.length) (x : Fin m → F) (y : Fin n → F) :
    SameViews (N := m + n + 1)
      (viewOn fun rng => QuadEqu.commitAndProve sch ⟨List.ofFn a, List.ofFn b, rows γ, t⟩ (List.ofFn x) (List.ofFn y) crs rng)
      (fun r => (viewOn (fun rng => QuadEqu.commitAndProve sch' ⟨List.ofFn b, List.ofFn a, rows γ.transpose, t⟩
        (List.ofFn y) (List.ofFn x) crs.mirror rng) r).map mirrorView) := by
  obtain ⟨u0, u1, u', hu⟩ := cons2_of_length hu
  obtain ⟨v0, v1, v', hv⟩ := cons2_of_length hv
  exact sameViews_mirror (p := 1) (q := 1) (by omega) γ (QuadEqu.view_eq hm hn rfl rfl rfl x y hu hv) (by omega)
    (QuadEqu.view_eq (crs := crs.mirror) hn hm rfl rfl rfl y x hv hu) fun r => pub_mirror _ _ _ _ _ _ _ γ r

end prove

section equation

theorem equLhs_mirror {A B C : Type} [AddCommGroup C] [Module F C] (f : A → B → C) (a : Fin n → A) (x : Fin m → A)
    (b : Fin m → B) (y : Fin n → B) (γ : _root_.Matrix (Fin m) (Fin n) F) :
    equLhs (fun y x => f x y) (List.ofFn b) (List.ofFn y) (List.ofFn a) (List.ofFn x) (rows γ.transpose) =
      equLhs f (List.ofFn a) (List.ofFn x) (List.ofFn b) (List.ofFn y) (rows γ) := by
  have h1 := equLhs_ofFn (F := F) (fun y x => f x y) b y a x γ.transpose
  have h2 := equLhs_ofFn (F := F) f a x b y γ
  refine h1.trans (h2.trans ?_).symm
  simp only [_root_.Matrix.transpose_apply]
  rw [Finset.sum_comm (f := fun i j => γ i j • f (x i) (y j))]
  abel

/-- C84: the exchanged equations say the same. -/
theorem C84_holds (γ : _root_.Matrix (Fin m) (Fin n) F) :
    (∀ (a : Fin n → G1) (x : Fin m → G1) (b : Fin m → G2) (y : Fin n → G2) (t : GT),
      PPE.Holds e ⟨List.ofFn a, List.ofFn b, rows γ, t⟩ (List.ofFn x) (List.ofFn y) ↔
      PPE.Holds e.flip ⟨List.ofFn b, List.ofFn a, rows γ.transpose, t⟩ (List.ofFn y) (List.ofFn x)) ∧
    (∀ (a : Fin n → G1) (x : Fin m → G1) (b : Fin m → F) (y : Fin n → F) (t : G1),
      MSMEG1.Holds ⟨List.ofFn a, List.ofFn b, rows γ, t⟩ (List.ofFn x) (List.ofFn y) ↔
      MSMEG2.Holds ⟨List.ofFn b, List.ofFn a, rows γ.transpose, t⟩ (List.ofFn y) (List.ofFn x)) ∧
    (∀ (a : Fin n → F) (x : Fin m → F) (b : Fin m → G2) (y : Fin n → G2) (t : G2),
      MSMEG2.Holds ⟨List.ofFn a, List.ofFn b, rows γ, t⟩ (List.ofFn x) (List.ofFn y) ↔
      MSMEG1.Holds ⟨List.ofFn b, List.ofFn a, rows γ.transpose, t⟩ (List.ofFn y) (List.ofFn x)) ∧
    (∀ (a : Fin n → F) (x : Fin m → F) (b : Fin m → F) (y : Fin n → F) (t : F),
      QuadEqu.Holds ⟨List.ofFn a, List.ofFn b, rows γ, t⟩ (List.ofFn x) (List.ofFn y) ↔
      QuadEqu.Holds ⟨List.ofFn b, List.ofFn a, rows γ.transpose, t⟩ (List.ofFn y) (List.ofFn x)) := by
  refine ⟨fun a x b y t => ?_, fun a x b y t => ?_, fun a x b y t => ?_, fun a x b y t => ?_⟩
  · simp only [PPE.Holds]
    rw [← equLhs_mirror]
    rfl
  · simp only [MSMEG1.Holds, MSMEG2.Holds]
    rw [← equLhs_mirror]
  · simp only [MSMEG1.Holds, MSMEG2.Holds]
    rw [← equLhs_mirror]
  · simp only [QuadEqu.Holds]
    rw [← equLhs_mirror]
    simp only [mul_comm]

/-- C84: the exchanged CRS is one that `generate_crs` returns for the exchanged groups, and exactly then. -/
theorem C84_crs (crs : CRS G1 G2 GT) :
    (GeneratedCrs e crs ↔ GeneratedCrs e.flip crs.mirror) ∧ (SimulatedCrs e crs ↔ SimulatedCrs e.flip crs.mirror) := by
  have h : ∀ crs' : CRS G1 G2 GT, crs = crs' ↔ crs.mirror = crs'.mirror := by
    intro crs'
    obtain ⟨_, _, _, _, _⟩ := crs
    obtain ⟨_, _, _, _, _⟩ := crs'
    simp only [CRS.mirror, CRS.mk.injEq]
    tauto
  rw [generated_iff, generated_iff, SimulatedCrs, SimulatedCrs]
  constructor
  · constructor
    · rintro ⟨p1, p2, a1, a2, t1, t2, hc⟩
      exact ⟨p2, p1, a2, a1, t2, t1, (h _).mp hc⟩
    · rintro ⟨p1, p2, a1, a2, t1, t2, hc⟩
      exact ⟨p2, p1, a2, a1, t2, t1, (h _).mpr hc⟩
  · constructor
    · rintro ⟨p1, p2, a1, a2, t1, t2, hc⟩
      exact ⟨p2, p1, a2, a1, t2, t1, (h _).mp hc⟩
    · rintro ⟨p1, p2, a1, a2, t1, t2, hc⟩
      exact ⟨p2, p1, a2, a1, t2, t1, (h _).mpr hc⟩

end equation

/-! ### Example -/

section example7
open Ex

/-- `msm1_7` with exchanged sides: the column of `γ` has become two rows. -/
example (sch sch' : Scheduler) (cp : CProof K K K) :
    SameOutcome (msm1_7.verify e7 sch cp crs7)
      (MSMEG2.verify e7.flip sch' (⟨[5], [1, 2], [[1], [2]], 1⟩ : MSMEG2 K K) cp.mirror crs7.mirror) :=
  C84_msmeg1_verify (m := 1) (n := 2) (by decide) (by decide) ![1, 2] ![5] !![1, 2] 1 cp

/-! ### Instances: the other kinds, and proving -/

section
variable (s s' : Scheduler) (sch sch' : Nat → Scheduler) (cp : CProof K K K)

example := C84_ppe_verify (e := e7) (crs := crs7) (sch := s) (sch' := s') (m := 1) (n := 2) (by decide) (by decide) ![1, 2] ![5] !![1, 2] 1 cp
example := C84_ppe_prove (crs := crs7) (sch := sch) (sch' := sch') (F := K) (m := 1) (n := 2) (by decide) (by decide) ![1, 2] ![5] !![1, 2] 1 (by decide) (by decide) ![2] ![3, 4]
  ppe7_msg.xcoms ppe7_msg.ycoms (by unfold Rect; decide) (by unfold Rect; decide)
example := C84_ppe_commit_and_prove (crs := crs7) (sch := sch) (sch' := sch') (F := K) (m := 1) (n := 2) (by decide) (by decide) ![1, 2] ![5] !![1, 2] 1 (by decide) (by decide) ![2] ![3, 4]
example := C84_msmeg1_prove (crs := crs7) (sch := sch) (sch' := sch') (F := K) (m := 1) (n := 2) (by decide) (by decide) ![1, 2] ![5] !![1, 2] 1 (by decide) (by decide) ![2] ![3, 4]
  msm1_7_msg.xcoms msm1_7_msg.ycoms (by unfold Rect; decide) (by unfold Rect; decide)
example := C84_msmeg1_commit_and_prove (crs := crs7) (sch := sch) (sch' := sch') (F := K) (m := 1) (n := 2) (by decide) (by decide) ![1, 2] ![5] !![1, 2] 1 (by decide) (by decide) ![2] ![3, 4]
example := C84_msmeg2_verify (e := e7) (crs := crs7) (sch := s) (sch' := s') (m := 1) (n := 2) (by decide) (by decide) ![1, 2] ![5] !![1, 2] 1 cp
example := C84_msmeg2_prove (crs := crs7) (sch := sch) (sch' := sch') (F := K) (m := 1) (n := 2) (by decide) (by decide) ![1, 2] ![5] !![1, 2] 1 (by decide) (by decide) ![2] ![3, 4]
  msm2_7_msg.xcoms msm2_7_msg.ycoms (by unfold Rect; decide) (by unfold Rect; decide)
example := C84_msmeg2_commit_and_prove (crs := crs7) (sch := sch) (sch' := sch') (F := K) (m := 1) (n := 2) (by decide) (by decide) ![1, 2] ![5] !![1, 2] 1 (by decide) (by decide) ![2] ![3, 4]
example := C84_quad_verify (e := e7) (crs := crs7) (sch := s) (sch' := s') (m := 1) (n := 2) (by decide) (by decide) ![1, 2] ![5] !![1, 2] 1 cp
example := C84_quad_prove (crs := crs7) (sch := sch) (sch' := sch') (F := K) (m := 1) (n := 2) (by decide) (by decide) ![1, 2] ![5] !![1, 2] 1 (by decide) (by decide) ![2] ![3, 4]
  quad7_msg.xcoms quad7_msg.ycoms (by unfold Rect; decide) (by unfold Rect; decide)
example := C84_quad_commit_and_prove (crs := crs7) (sch := sch) (sch' := sch') (F := K) (m := 1) (n := 2) (by decide) (by decide) ![1, 2] ![5] !![1, 2] 1 (by decide) (by decide) ![2] ![3, 4]

end

end example7

end GS
