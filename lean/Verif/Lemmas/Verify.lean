import Verif.Model.Verify
import Verif.Spec.Equation
import Verif.Spec.Domain
import Verif.Lemmas.Commit

/-! The common computation of the four verifiers: exact success domain and value. -/

set_option linter.unusedSectionVars false
set_option linter.unusedVariables false

namespace GS

section equ
variable {F A B C A' B' C' : Type} [Field F] [AddCommGroup C] [Module F C] [AddCommGroup C'] [Module F C']

theorem equLhs_map (f : A → B → C) (f' : A' → B' → C') (φ : A → A') (ψ : B → B') (χ : C →ₗ[F] C')
    (h : ∀ a b, χ (f a b) = f' (φ a) (ψ b)) (a x : List A) (b y : List B) (γ : Matrix F) :
    χ (equLhs f a x b y γ) = equLhs f' (a.map φ) (x.map φ) (b.map ψ) (y.map ψ) γ := by
  simp only [equLhs, map_add, map_list_sum, List.map_zipWith, h, List.zipWith_map_left,
    List.zipWith_map_right, map_smul]

theorem equLhs_ofFn (f : A → B → C) {m n : Nat} (a : Fin n → A) (x : Fin m → A) (b : Fin m → B) (y : Fin n → B)
    (γ : Fin m → Fin n → F) :
    equLhs f (List.ofFn a) (List.ofFn x) (List.ofFn b) (List.ofFn y) (matOf γ) =
      (∑ j, f (a j) (y j)) + (∑ i, f (x i) (b i)) + ∑ i, ∑ j, γ i j • f (x i) (y j) := by
  simp only [equLhs, matOf, zipWith_ofFn, List.sum_ofFn]

end equ

variable {F G1 G2 GT : Type} [Field F] [AddCommGroup G1] [Module F G1] [AddCommGroup G2] [Module F G2]
  [AddCommGroup GT] [Module F GT]

/-- The part common to the four verifiers. -/
def verifyCore [DecidableEq GT] (e : G1 →ₗ[F] G2 →ₗ[F] GT) (sch : Scheduler) (gamma : Matrix F)
    (la : Res (List (Com G1))) (lb : Res (List (Com G2))) (c : List (Com G1)) (d : List (Com G2))
    (lt p1 p2 : Res (ComT GT)) : Res Bool := do
  let lin_a_com_y ← ComT.pairingSum e (← la) d
  let com_x_lin_b ← ComT.pairingSum e c (← lb)
  let stmt_com_y ← ComMat.leftMul sch (vecToColVec d) gamma true
  let com_x_stmt_com_y ← ComT.pairingSum e c (← colVecToVec stmt_com_y)
  let lin_t ← lt
  let com1_pf2 ← p1
  let pf1_com2 ← p2
  let lhs := lin_a_com_y + com_x_lin_b + com_x_stmt_com_y
  let rhs := lin_t + com1_pf2 + pf1_com2
  pure (ComT.eq lhs rhs)

theorem isEmptyMat_iff {α : Type} {M : Matrix α} : isEmptyMat M = true ↔ M = [] ∨ ∃ l, M = [] :: l := by
  rcases M with _ | ⟨_ | ⟨a, r⟩, l⟩ <;> simp [isEmptyMat]

theorem zipWith_long {α β γ : Type} (f : α → β → γ) (r : List α) (d : List β) (g : Fin d.length → α)
    (hg : ∀ k : Fin d.length, r[k.val]? = some (g k)) :
    List.zipWith f r d = List.ofFn fun k : Fin d.length => f (g k) (d.get k) := by
  have hlen : d.length ≤ r.length := by
    by_contra hlt
    have := hg ⟨r.length, by omega⟩
    simp at this
  apply List.ext_getElem
  · simp; omega
  · intro i h1 h2
    have := hg ⟨i, by simpa using h2⟩
    rw [List.getElem?_eq_some_iff] at this
    obtain ⟨h, h'⟩ := this
    simp only [List.getElem_zipWith, List.getElem_ofFn, List.get_eq_getElem]
    rw [← h']

theorem gamma_product {sch : Scheduler} {gamma : Matrix F} {m : Nat} {d w : List (Com G2)} :
    ((ComMat.leftMul sch (vecToColVec d) gamma true >>= colVecToVec) = .ok w ∧ m = w.length) ↔
      GammaDom m d.length gamma ∧
        w = if m = 0 then [] else gamma.map fun row => (List.zipWith (fun g y => g • y) row d).sum := by
  simp only [bind_ok_iff]
  constructor
  · rintro ⟨⟨M, hM, hw⟩, rfl⟩
    rcases ComMat.leftMul_iff.mp hM with ⟨hE, rfl⟩ | ⟨dim, n, f, g, hdim, hn, hlen, h4, h5, hf, hg, rfl⟩
    · have : w = [] := by simpa [colVecToVec, eq_comm] using hw
      subst this
      refine ⟨.inl ⟨rfl, ?_⟩, by simp⟩
      rcases hE with hE | hE
      · exact .inr (isEmptyMat_iff.mp hE)
      · left
        rcases isEmptyMat_iff.mp hE with h | ⟨l, h⟩
        · simpa [vecToColVec] using h
        · rcases d with _ | ⟨a, d⟩ <;> simp [vecToColVec] at h
    · rw [length_vecToColVec] at hlen
      subst hlen
      have hn1 : n = 1 := by
        rcases d with _ | ⟨a, d⟩
        · simp at hdim
        · simpa [vecToColVec, firstRowLen, eq_comm] using h5
      subst hn1
      rw [colVecToVec_matOf] at hw
      have hpos : 0 < gamma.length := by
        rcases gamma with _ | ⟨r, l⟩
        · simp [firstRowLen] at h4
        · simp
      have hw' := Except.ok.inj hw
      subst hw'
      simp only [List.length_ofFn]
      refine ⟨.inr ⟨hpos, hdim, rfl, ?_, (exists_reads_iff rfl hdim).mp ⟨f, hf⟩⟩, ?_⟩
      · intro r hr
        rcases gamma with _ | ⟨r', l⟩
        · simp at hr
        · simp at hr h4; subst hr; exact h4
      · rw [if_neg (by omega)]
        apply List.ext_getElem
        · simp
        · intro i h1 h2
          simp only [List.length_ofFn] at h1
          simp only [List.getElem_ofFn, List.getElem_map]
          rw [zipWith_long (fun g y => g • y) gamma[i] d (f ⟨i, h1⟩), List.sum_ofFn]
          · refine Finset.sum_congr rfl fun k _ => ?_
            congr 1
            have := hg k 0
            simp only [idx2_eq_ok, vecToColVec] at this
            obtain ⟨row, hr1, hr2⟩ := this
            simp at hr1
            subst hr1
            simpa using hr2.symm
          · intro k
            have := hf ⟨i, h1⟩ k
            simpa [idx2_eq_ok, h1] using this
  · rintro ⟨⟨rfl, hE⟩ | ⟨hm, hn, hlen, h0, hrow⟩, rfl⟩
    · refine ⟨⟨[], ?_, by simp [colVecToVec]⟩, by simp⟩
      rw [ComMat.leftMul_iff, isProduct_of_empty]
      rcases hE with h | h
      · right; rw [isEmptyMat_iff]; left; simpa [vecToColVec] using h
      · exact .inl (isEmptyMat_iff.mpr h)
    · subst hlen
      obtain ⟨f, hf⟩ := (exists_reads_iff rfl hn).mpr hrow
      refine ⟨⟨matOf fun i (_ : Fin 1) => ∑ k : Fin d.length, f i k • d.get k, ?_, ?_⟩, by
        rw [if_neg (by omega)]; simp⟩
      · rw [ComMat.leftMul_iff]
        refine .inr ⟨d.length, 1, f, fun k _ => d.get k, hn, Nat.one_pos, by simp, ?_, ?_, hf, ?_, rfl⟩
        · rcases gamma with _ | ⟨r, l⟩
          · simp at hm
          · simp [h0 r rfl]
        · rcases d with _ | ⟨a, d⟩
          · simp at hn
          · rfl
        · intro k j
          simp [idx2_eq_ok, vecToColVec]
      · rw [colVecToVec_matOf, if_neg (by omega)]
        congr 1
        apply List.ext_getElem
        · simp
        · intro i h1 h2
          simp only [List.length_ofFn] at h1
          simp only [List.getElem_ofFn, List.getElem_map]
          rw [zipWith_long (fun g y => g • y) gamma[i] d (f ⟨i, h1⟩), List.sum_ofFn]
          intro k
          have := hf ⟨i, h1⟩ k
          simpa [idx2_eq_ok, h1] using this

/-- Exact result of the common part of verification. -/
theorem verifyCore_iff [DecidableEq GT] {e : G1 →ₗ[F] G2 →ₗ[F] GT} {sch : Scheduler} {gamma : Matrix F}
    {la : Res (List (Com G1))} {lb : Res (List (Com G2))} {c : List (Com G1)} {d : List (Com G2)}
    {lt p1 p2 : Res (ComT GT)} {r : Bool} :
    verifyCore e sch gamma la lb c d lt p1 p2 = .ok r ↔
      ∃ a b t q1 q2, la = .ok a ∧ lb = .ok b ∧ lt = .ok t ∧ p1 = .ok q1 ∧ p2 = .ok q2 ∧
        a.length = d.length ∧ c.length = b.length ∧ GammaDom c.length d.length gamma ∧
        r = decide (equLhs (fun x y => ComT.pairing e x y) a c b d gamma = t + q1 + q2) := by
  have hval : ∀ w, (w = if c.length = 0 then [] else gamma.map fun row =>
      (List.zipWith (fun g y => g • y) row d).sum) → (List.zipWith (fun x y => ComT.pairing e x y) c w).sum =
      (List.zipWith (fun x row => (List.zipWith (fun g y => g • ComT.pairing e x y) row d).sum) c gamma).sum := by
    rintro w rfl
    rcases c with _ | ⟨c0, c⟩
    · simp
    · rw [if_neg (by simp), List.zipWith_map_right]
      congr 2
      funext x row
      rw [ComT.pairing_eq, map_list_sum, List.map_zipWith]
      simp only [map_smul]
      rfl
  simp only [verifyCore, bind_ok_iff, ComT.pairingSum_iff, pure_eq_ok, Except.ok.injEq, ComT.eq_eq_decide]
  constructor
  · rintro ⟨a, hla, _, ⟨h1, rfl⟩, b, hlb, _, ⟨h2, rfl⟩, M, hM, w, hw, _, ⟨h3, rfl⟩, t, ht, q1, hq1, q2, hq2, rfl⟩
    obtain ⟨h4, h5⟩ := gamma_product.mp ⟨by rw [hM, ok_bind]; exact hw, h3⟩
    refine ⟨a, b, t, q1, q2, hla, hlb, ht, hq1, hq2, h1, h2, h4, ?_⟩
    rw [hval w h5]; rfl
  · rintro ⟨a, b, t, q1, q2, hla, hlb, ht, hq1, hq2, h1, h2, h4, rfl⟩
    obtain ⟨h5, h6⟩ := (gamma_product (sch := sch)).mpr ⟨h4, rfl⟩
    rw [bind_ok_iff] at h5
    obtain ⟨M, hM, hw⟩ := h5
    refine ⟨a, hla, _, ⟨h1, rfl⟩, b, hlb, _, ⟨h2, rfl⟩, M, hM, _, hw, _, ⟨h6, rfl⟩, t, ht, q1, hq1, q2, hq2, ?_⟩
    rw [hval _ rfl]; rfl

variable [DecidableEq GT] (e : G1 →ₗ[F] G2 →ₗ[F] GT) (sch : Scheduler)

theorem verify_header {α : Type} [DecidableEq EquType] {l : List α} {ty : EquType} {g : α → EquType}
    {f : α → Res Bool} {r : Bool} :
    (do assertEq l.length 1
        let pf ← idx l 0
        assertEq ty (g pf)
        f pf : Res Bool) = .ok r ↔ ∃ pf, l = [pf] ∧ ty = g pf ∧ f pf = .ok r := by
  simp only [bind_ok_iff, assertEq_ok_iff, exists_const, List.length_eq_one_iff]
  constructor
  · rintro ⟨⟨a, rfl⟩, pf, h, h1, h2⟩
    simp at h; subst h
    exact ⟨a, rfl, h1, h2⟩
  · rintro ⟨pf, rfl, h1, h2⟩
    exact ⟨⟨pf, rfl⟩, pf, rfl, h1, h2⟩

theorem PPE.verify_iff {self : PPE F G1 G2 GT} {cp : CProof F G1 G2} {crs : CRS G1 G2 GT} {r : Bool} :
    self.verify e sch cp crs = .ok r ↔ ∃ pf, cp.equ_proofs = [pf] ∧ EquType.PairingProduct = pf.equ_type ∧
      verifyCore e sch self.gamma (.ok (Com1.batchLinearMap self.a_consts)) (.ok (Com2.batchLinearMap self.b_consts))
        cp.xcoms.coms cp.ycoms.coms (.ok (ComT.linearMapPPE self.target)) (ComT.pairingSum e crs.u pf.pi)
        (ComT.pairingSum e pf.theta crs.v) = .ok r :=
  verify_header

theorem MSMEG1.verify_iff {self : MSMEG1 F G1} {cp : CProof F G1 G2} {crs : CRS G1 G2 GT} {r : Bool} :
    self.verify e sch cp crs = .ok r ↔ ∃ pf, cp.equ_proofs = [pf] ∧ EquType.MultiScalarG1 = pf.equ_type ∧
      verifyCore e sch self.gamma (.ok (Com1.batchLinearMap self.a_consts)) (Com2.batchScalarLinearMap self.b_consts crs)
        cp.xcoms.coms cp.ycoms.coms (ComT.linearMapMSMEG1 e self.target crs) (ComT.pairingSum e crs.u pf.pi)
        (do pure (ComT.pairing e (← idx pf.theta 0) (← idx crs.v 0))) = .ok r := by
  simp only [verifyCore, bind_assoc, pure_bind, ok_bind]
  exact verify_header

theorem MSMEG2.verify_iff {self : MSMEG2 F G2} {cp : CProof F G1 G2} {crs : CRS G1 G2 GT} {r : Bool} :
    self.verify e sch cp crs = .ok r ↔ ∃ pf, cp.equ_proofs = [pf] ∧ EquType.MultiScalarG2 = pf.equ_type ∧
      verifyCore e sch self.gamma (Com1.batchScalarLinearMap self.a_consts crs) (.ok (Com2.batchLinearMap self.b_consts))
        cp.xcoms.coms cp.ycoms.coms (ComT.linearMapMSMEG2 e self.target crs)
        (do pure (ComT.pairing e (← idx crs.u 0) (← idx pf.pi 0)))
        (ComT.pairingSum e pf.theta crs.v) = .ok r := by
  simp only [verifyCore, bind_assoc, pure_bind, ok_bind]
  exact verify_header

theorem QuadEqu.verify_iff {self : QuadEqu F} {cp : CProof F G1 G2} {crs : CRS G1 G2 GT} {r : Bool} :
    self.verify e sch cp crs = .ok r ↔ ∃ pf, cp.equ_proofs = [pf] ∧ EquType.Quadratic = pf.equ_type ∧
      verifyCore e sch self.gamma (Com1.batchScalarLinearMap self.a_consts crs) (Com2.batchScalarLinearMap self.b_consts crs)
        cp.xcoms.coms cp.ycoms.coms (ComT.linearMapQuad e self.target crs)
        (do pure (ComT.pairing e (← idx crs.u 0) (← idx pf.pi 0)))
        (do pure (ComT.pairing e (← idx pf.theta 0) (← idx crs.v 0))) = .ok r := by
  simp only [verifyCore, bind_assoc, pure_bind]
  exact verify_header

end GS
