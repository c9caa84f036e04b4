import Verif.Lemmas.Tower
import Verif.Spec.Coord
import Verif.Spec.Raw
import Verif.Spec.TowerPoint

/-! # Lemmas on points in words -/

set_option linter.unusedSectionVars false

namespace GS.Tower

section
variable {R S : Type} [Ops R] [DecidableEq R] [Field S] [DecidableEq S] {φ : R → S}

theorem Models.eq_iff (h : Models φ) {a b : R} : φ a = φ b ↔ a = b := h.bij.1.eq_iff

theorem Models.eq_zero (h : Models φ) {a : R} : φ a = 0 ↔ a = 0 := by rw [← h.zero, h.eq_iff]

theorem Models.eq_one (h : Models φ) {a : R} : φ a = 1 ↔ a = 1 := by rw [← h.one, h.eq_iff]

theorem valA_identity (h : Models φ) : valA φ identityW = Affine.identity := by
  simp only [valA, identityW, h.zero]; rfl

theorem valJ_zero (h : Models φ) : valJ φ zeroW = Projective.zero := by
  simp only [valJ, zeroW, h.zero, h.one]; rfl

theorem valJ_intoGroup (h : Models φ) (P : Affine R) : valJ φ (intoGroupW P) = (valA φ P).intoGroup := by
  unfold intoGroupW Affine.intoGroup
  obtain ⟨x, y, i⟩ := P
  cases i
  · simp [valA, valJ, h.one]
  · simpa [valA] using valJ_zero h

theorem valA_intoAffine (h : Models φ) (P : Projective R) : valA φ (intoAffineW P) = (valJ φ P).intoAffine := by
  unfold intoAffineW Projective.intoAffine
  simp only [valJ, h.eq_zero, h.eq_one]
  split
  · exact valA_identity h
  · next h0 =>
    split
    · rfl
    · obtain ⟨b, e, e'⟩ := h.inverse P.z fun hz => h0 (h.eq_zero.1 hz)
      simp only [e, valA, h.mul, h.square, e', pow_two]

theorem valJ_double (h : Models φ) (P : Projective R) : valJ φ (doubleW P) = (valJ φ P).double := by
  unfold doubleW Projective.double
  simp only [valJ, h.eq_zero]
  split
  · rfl
  · simp only [h.add, h.sub, h.mul, h.double, h.square]
    ext <;> ring

theorem valJ_addAffine (h : Models φ) (P : Projective R) (Q : Affine R) : valJ φ (addAffineW P Q) = (valJ φ P).addAffine (valA φ Q) := by
  unfold addAffineW Projective.addAffine
  by_cases hQ : Q.infinity = true
  · rw [if_pos hQ, if_pos (show (valA φ Q).infinity = true from hQ)]
  · rw [if_neg hQ, if_neg (show ¬(valA φ Q).infinity = true from hQ)]
    simp only [valA, valJ, h.eq_zero]
    split
    · simp only [h.one]
    · have e1 : (φ P.x = φ Q.x * (φ P.z * φ P.z)) ↔ P.x = Q.x * square P.z := by rw [← h.eq_iff, h.mul, h.square, pow_two]
      have e2 : (φ P.y = φ P.z * φ Q.y * (φ P.z * φ P.z)) ↔ P.y = P.z * Q.y * square P.z := by rw [← h.eq_iff, h.mul, h.mul, h.square, pow_two]
      simp only [e1, e2]
      split
      · exact valJ_double h P
      · simp only [h.add, h.sub, h.neg, h.mul, h.double, h.square, h.sop2]
        ext <;> ring

theorem valJ_add (h : Models φ) (P Q : Projective R) : valJ φ (addW P Q) = (valJ φ P).add (valJ φ Q) := by
  unfold addW Projective.add
  simp only [valJ, h.eq_zero]
  split
  · rfl
  · split
    · rfl
    · have e1 : (φ P.x * (φ Q.z * φ Q.z) = φ Q.x * (φ P.z * φ P.z)) ↔ P.x * square Q.z = Q.x * square P.z := by
        rw [← h.eq_iff, h.mul, h.mul, h.square, h.square, pow_two, pow_two]
      have e2 : (φ P.y * φ Q.z * (φ Q.z * φ Q.z) = φ Q.y * φ P.z * (φ P.z * φ P.z)) ↔ P.y * Q.z * square Q.z = Q.y * P.z * square P.z := by
        rw [← h.eq_iff, h.mul, h.mul, h.mul, h.mul, h.square, h.square, pow_two, pow_two]
      simp only [e1, e2]
      split
      · exact valJ_double h P
      · simp only [h.add, h.sub, h.neg, h.mul, h.double, h.square, h.sop2]
        ext <;> ring

theorem valJ_neg (h : Models φ) (P : Projective R) : valJ φ (negW P) = (valJ φ P).neg := by
  simp only [valJ, negW, h.neg, Projective.neg]

theorem valJ_sub (h : Models φ) (P Q : Projective R) : valJ φ (subW P Q) = (valJ φ P).sub (valJ φ Q) := by
  rw [subW, valJ_add h, valJ_neg h, Projective.sub]

theorem same_val (h : Models φ) (P Q : Projective R) : sameW P Q = (valJ φ P).same (valJ φ Q) := by
  unfold sameW Projective.same
  simp only [valJ, h.eq_zero]
  split
  · rfl
  · split
    · rfl
    · have e1 : (φ P.x * (φ Q.z * φ Q.z) = φ Q.x * (φ P.z * φ P.z)) ↔ P.x * square Q.z = Q.x * square P.z := by
        rw [← h.eq_iff, h.mul, h.mul, h.square, h.square, pow_two, pow_two]
      have e2 : (φ P.y * (φ Q.z * φ Q.z * φ Q.z) = φ Q.y * (φ P.z * φ P.z * φ P.z)) ↔ P.y * (square Q.z * Q.z) = Q.y * (square P.z * P.z) := by
        rw [← h.eq_iff, h.mul, h.mul, h.mul, h.mul, h.square, h.square, pow_two, pow_two]
      simp only [e1, e2]
      by_cases hx : P.x * square Q.z = Q.x * square P.z <;> simp [hx]

theorem valJ_foldl {α : Type} {f : Projective R → α → Projective R} {g : Projective S → α → Projective S} (hf : ∀ P a, valJ φ (f P a) = g (valJ φ P) a) (l : List α) (P : Projective R) :
    valJ φ (l.foldl f P) = l.foldl g (valJ φ P) := by
  induction l generalizing P with
  | nil => rfl
  | cons a l ih => rw [List.foldl_cons, List.foldl_cons, ih, hf]

theorem valJ_mulNat (h : Models φ) (P : Projective R) (n : Nat) : valJ φ (mulNatW P n) = (valJ φ P).mulNat n := by
  rw [mulNatW, Projective.mulNat, ← valJ_zero h]
  refine valJ_foldl (fun Q b => ?_) _ _
  cases b
  · exact valJ_double h Q
  · exact (valJ_add h _ _).trans (by rw [valJ_double h]; rfl)

theorem valJ_mulNatAffine (h : Models φ) (P : Affine R) (n : Nat) : valJ φ (mulNatAffineW P n) = (valA φ P).mulNat n := by
  rw [mulNatAffineW, Affine.mulNat, ← valJ_zero h]
  refine valJ_foldl (fun Q b => ?_) _ _
  cases b
  · exact valJ_double h Q
  · exact (valJ_addAffine h _ _).trans (by rw [valJ_double h]; rfl)

theorem valJ_glvLoop (h : Models φ) (b1 b2 b3 : Projective R) (l : List (Bool × Bool)) (res : Projective R) (skip : Bool) :
    valJ φ (glvLoopW b1 b2 b3 res skip l) = glvLoop (valJ φ b1) (valJ φ b2) (valJ φ b3) (valJ φ res) skip l := by
  induction l generalizing res skip with
  | nil => rfl
  | cons a l ih =>
    obtain ⟨x, y⟩ := a
    cases x <;> cases y <;> simp only [glvLoopW, glvLoop]
    · split
      · exact ih _ _
      · rw [ih, valJ_double h]
    all_goals rw [ih, valJ_add h, valJ_double h]

theorem valJ_endo (h : Models φ) {beta : R} (hb : φ beta = beta1) (P : Projective R) : valJ φ (endoW beta P) = (valJ φ P).endo := by
  simp only [valJ, endoW, h.mul, hb, Projective.endo, mul_comm]

theorem valJ_glvMul (h : Models φ) {beta : R} (hb : φ beta = beta1) (P : Projective R) (k : Nat) : valJ φ (glvMulW beta P k) = (valJ φ P).glvMul k := by
  unfold glvMulW Projective.glvMul
  simp only [valJ_glvLoop h, valJ_add h, valJ_zero h, apply_ite (valJ φ), valJ_neg h, valJ_endo h hb]

theorem testG1_val (h : Models φ) {beta : R} (hb : φ beta = beta1) (P : Affine R) : testG1W beta P = coordG1 Projective.glvMul (valA φ P) := by
  unfold testG1W coordG1
  simp only [same_val h, valJ_mulNatAffine h, valJ_intoGroup h, valJ_neg h, valJ_glvMul h hb]
  simp only [valA, h.mul, hb]
  rfl

/-! ## The operations of affine coordinates -/

theorem valA_add (h : Models φ) (P Q : Affine R) : valA φ (P + Q) = valA φ P + valA φ Q := by
  show valA φ (intoAffineW (addAffineW (intoGroupW P) Q)) = ((valA φ P).intoGroup.addAffine (valA φ Q)).intoAffine
  rw [valA_intoAffine h, valJ_addAffine h, valJ_intoGroup h]

theorem valA_neg (h : Models φ) (P : Affine R) : valA φ (-P) = -valA φ P := by
  show valA φ (intoAffineW (negW (intoGroupW P))) = ((valA φ P).intoGroup.neg).intoAffine
  rw [valA_intoAffine h, valJ_neg h, valJ_intoGroup h]

theorem valA_zero (h : Models φ) : valA φ (0 : Affine R) = 0 := valA_identity h

theorem valA_smul {F : Type} [MulProjective F R] [MulProjective F S] (h : Models φ) (hm : ∀ (P : Projective R) (a : F), valJ φ (MulProjective.mul P a) = MulProjective.mul (valJ φ P) a)
    (a : F) (P : Affine R) : valA φ (a • P) = a • valA φ P := by
  show valA φ (intoAffineW (MulProjective.mul (intoGroupW P) a)) = (MulProjective.mul (valA φ P).intoGroup a).intoAffine
  rw [valA_intoAffine h, hm, valJ_intoGroup h]

end

section
variable {R S : Type} [Ops R] [DecidableEq R] [Field S] [DecidableEq S] {φ : R → S} [Fact (∀ r : S, r ^ 2 ≠ -1 + 0 * r)]

theorem testG2_val (h : Models φ) {c0 c1 : Fp2 R} (h0 : val2 φ c0 = toFq2 coeff0) (h1 : val2 φ c1 = toFq2 coeff1) (P : Affine (Fp2 R)) :
    testG2W c0 c1 P = coordG2 (valA (val2 φ) P) := by
  have h2 := models2 h
  have hs : ∀ a : Fp2 R, val2 φ ⟨a.c0, -a.c1⟩ = star (val2 φ a) := fun a => by
    ext <;> simp [val2, h.neg]
  unfold testG2W coordG2
  simp only [same_val h2, valJ_mulNatAffine h2, valJ_intoGroup h2, valJ_neg h2]
  simp only [valA, h2.mul, h0, h1, hs]

end

end GS.Tower
