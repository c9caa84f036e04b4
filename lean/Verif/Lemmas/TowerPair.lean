import Verif.Lemmas.TowerExp

/-!
# The pairing in coordinates is the pairing
-/

open Polynomial

namespace GS.Tower

set_option linter.unusedSectionVars false

section
variable {R S : Type} [Ops R] [DecidableEq R] [Field S] [DecidableEq S] [Fintype S] {φ : R → S} [Fact (∀ r : S, r ^ 2 ≠ -1 + 0 * r)] [Fact (Irreducible (X ^ 3 - C (xiFq6 S)))]
  [Fact (∀ b : Fq6 S, b ^ 2 ≠ xiFq12 S + 0 * b)]

def valL (φ : R → S) (c : Line R) : EllCoeff S := (val2 φ c.1, val2 φ c.2.1, val2 φ c.2.2)

def valH (φ : R → S) (r : Hom R) : G2Hom S := ⟨val2 φ r.x, val2 φ r.y, val2 φ r.z⟩

def valP (φ : R → S) (l : List (Affine R × List (Line R))) : List (Affine S × List (EllCoeff S)) := l.map fun pc => (valA φ pc.1, pc.2.map (valL φ))

theorem val2_mulByFp (h : Models φ) (a : Fp2 R) (e : R) : val2 φ (mulByFp a e) = φ e • val2 φ a := by
  ext
  · simp [val2, mulByFp, h.mul, mul_comm]
  · simp [val2, mulByFp, h.mul, mul_comm]

theorem hom_double (h : Models φ) {B : Fp2 R} (hB : val2 φ B = ⟨4, 4⟩) {t : R} (ht : φ t = 2⁻¹) (r : Hom R) :
    valL φ (r.double B t).1 = (valH φ r).double.1 ∧ valH φ (r.double B t).2 = (valH φ r).double.2 := by
  have h2 := models2 h
  simp only [valL, valH, Hom.double, G2Hom.double, val2_mulByFp h, h2.add, h2.sub, h2.mul, h2.neg, h2.double, h2.square, hB, ht, Algebra.smul_def, Prod.mk.injEq, G2Hom.mk.injEq]
  refine ⟨⟨?_, ?_, ?_⟩, ?_, ?_, ?_⟩ <;> ring

theorem hom_add (h : Models φ) (r : Hom R) (qx qy : Fp2 R) :
    valL φ (r.add qx qy).1 = ((valH φ r).add (val2 φ qx) (val2 φ qy)).1 ∧ valH φ (r.add qx qy).2 = ((valH φ r).add (val2 φ qx) (val2 φ qy)).2 := by
  have h2 := models2 h
  simp only [valL, valH, Hom.add, G2Hom.add, h2.add, h2.sub, h2.mul, h2.neg, h2.double, h2.square, G2Hom.mk.injEq]
  refine ⟨trivial, ?_, ?_, ?_⟩ <;> ring

theorem val_lines (h : Models φ) {B : Fp2 R} (hB : val2 φ B = ⟨4, 4⟩) {t : R} (ht : φ t = 2⁻¹) (qx qy : Fp2 R) (l : List Bool) (r : Hom R) :
    (lines B t qx qy l r).map (valL φ) = lineCoeffs (val2 φ qx) (val2 φ qy) l (valH φ r) := by
  induction l generalizing r with
  | nil => rfl
  | cons i l ih =>
    obtain ⟨e1, e2⟩ := hom_double h hB ht r
    obtain ⟨g1, g2⟩ := hom_add h (r.double B t).2 qx qy
    rw [lines, lineCoeffs]
    simp only [List.map_cons]
    rw [e1]
    refine congrArg _ ?_
    cases i
    · simp only [Bool.false_eq_true, if_false]
      rw [ih, e2]
    · simp only [if_true, List.map_cons]
      rw [ih, g1, g2, e2]

theorem two_inv (h : Models φ) (h2 : (2 : S) ≠ 0) : ∃ t, inverse (Ops.double (1 : R)) = some t ∧ φ t = 2⁻¹ := by
  have e : φ (Ops.double (1 : R)) = 2 := by rw [h.double, h.one, mul_one]
  obtain ⟨t, h1, h3⟩ := h.inverse (Ops.double (1 : R)) (by rw [e]; exact h2)
  exact ⟨t, h1, by rw [h3, e]⟩

theorem val_prepare (h : Models φ) (h2 : (2 : S) ≠ 0) {B : Fp2 R} (hB : val2 φ B = ⟨4, 4⟩) (Q : Affine (Fp2 R)) :
    ∃ o, prepare B loopBits Q = some o ∧
      o.map (List.map (valL φ)) = if (GS.prepare (valA (val2 φ) Q)).infinity then none else some (GS.prepare (valA (val2 φ) Q)).ell_coeffs := by
  rw [prepare, GS.prepare]
  cases hQ : Q.infinity
  · obtain ⟨t, h1, h3⟩ := two_inv h h2
    rw [if_neg (by decide), h1]
    refine ⟨_, rfl, ?_⟩
    simp only [valA, hQ, Bool.false_eq_true, if_false, Option.map_some, val_lines h hB h3, valH, (models2 h).one]
  · exact ⟨none, rfl, by simp [valA, hQ]⟩

theorem val_ell (h : Models φ) (f : Fp12 R) (c : Line R) (P : Affine R) : (ell f c P).map (val12 φ) = GS.ell (val12 φ f) (valL φ c) (valA φ P) := by
  rw [ell, GS.ell]
  cases hP : P.infinity
  · simp only [valA, hP, Bool.false_eq_true, if_false, Option.map_some, val12_mulBy014 h, val2_mulByFp h, valL]
  · simp [valA, hP]

theorem val_ellAll (h : Models φ) (l : List (Affine R × List (Line R))) (f : Fp12 R) :
    (ellAll f l).map (fun r => (val12 φ r.1, valP φ r.2)) = GS.ellAll (val12 φ f) (valP φ l) := by
  induction l generalizing f with
  | nil => rfl
  | cons pc l ih =>
    obtain ⟨P, _ | ⟨c, cs⟩⟩ := pc
    · rfl
    · rw [ellAll, valP, List.map_cons, List.map_cons, GS.ellAll, ← val_ell h]
      cases ell f c P with
      | none => rfl
      | some f' =>
        simp only [Option.map_some, Option.bind_eq_bind, Option.bind_some]
        have := ih f'
        rw [valP] at this
        rw [← this]
        cases ellAll f' l with
        | none => rfl
        | some r => rfl

theorem val_millerChunk (h : Models φ) (bits : List Bool) (f : Fp12 R) (l : List (Affine R × List (Line R))) :
    (millerChunk bits f l).map (val12 φ) = GS.millerChunk bits (val12 φ f) (valP φ l) := by
  have h12 := models12 h
  induction bits generalizing f l with
  | nil => rfl
  | cons i bits ih =>
    rw [millerChunk, GS.millerChunk, ← pow_two, ← h12.square, ← val_ellAll h]
    cases ellAll (square f) l with
    | none => rfl
    | some r =>
      simp only [Option.map_some, Option.bind_eq_bind, Option.bind_some]
      cases i
      · simp only [Bool.false_eq_true, if_false]
        exact ih _ _
      · simp only [if_true]
        rw [← val_ellAll h]
        cases ellAll r.1 r.2 with
        | none => rfl
        | some r' =>
          simp only [Option.map_some, Option.bind_some]
          exact ih _ _

theorem mapM_map {α β γ δ : Type} {f : α → Option β} {g : γ → Option δ} {u : α → γ} {v : β → δ} (hfg : ∀ a, (f a).map v = g (u a)) (l : List α) :
    (l.mapM f).map (List.map v) = (l.map u).mapM g := by
  induction l with
  | nil => rfl
  | cons a l ih =>
    rw [List.map_cons, List.mapM_cons, List.mapM_cons, ← ih, ← hfg]
    cases f a with
    | none => rfl
    | some b =>
      cases l.mapM f with
      | none => rfl
      | some bs => rfl

theorem chunks4_map {α β : Type} (u : α → β) (l : List α) : chunks4 (l.map u) = (chunks4 l).map (List.map u) := by
  induction l using chunks4.induct with
  | case1 => rfl
  | case2 a b c d l ih => simp only [List.map_cons, chunks4, ih, List.map_nil]
  | case3 l h1 h2 =>
    rcases l with _ | ⟨a, _ | ⟨b, _ | ⟨c, _ | ⟨d, l⟩⟩⟩⟩
    · exact absurd rfl h1
    · rfl
    · rfl
    · rfl
    · exact absurd rfl (h2 a b c d l)

theorem foldl_map12 (h : Models φ) (l : List (Fp12 R)) (f : Fp12 R) : val12 φ (l.foldl (· * ·) f) = (l.map (val12 φ)).foldl (· * ·) (val12 φ f) := by
  have h12 := models12 h
  induction l generalizing f with
  | nil => rfl
  | cons a l ih => rw [List.foldl_cons, List.map_cons, List.foldl_cons, ih, h12.mul]

theorem val_pairs (h : Models φ) (h2 : (2 : S) ≠ 0) {B : Fp2 R} (hB : val2 φ B = ⟨4, 4⟩) (a : List (Affine R)) (b : List (Affine (Fp2 R))) :
    ∃ qs, b.mapM (prepare B loopBits) = some qs ∧
      valP φ ((a.zip qs).filterMap fun pq => if pq.1.infinity then none else pq.2.map fun l => (pq.1, l)) =
        (((a.map (valA φ)).zip (b.map (valA (val2 φ)))).filterMap fun pq =>
          if !pq.1.infinity && !(GS.prepare pq.2).infinity then some (pq.1, (GS.prepare pq.2).ell_coeffs) else none) := by
  induction b generalizing a with
  | nil => exact ⟨[], rfl, by simp [valP]⟩
  | cons Q b ih =>
    obtain ⟨o, e, e'⟩ := val_prepare h h2 hB Q
    obtain ⟨qs, g, -⟩ := ih []
    refine ⟨o :: qs, by rw [List.mapM_cons, e, g]; rfl, ?_⟩
    rcases a with _ | ⟨P, a⟩
    · rfl
    obtain ⟨qs', g', g''⟩ := ih a
    obtain rfl : qs = qs' := Option.some.inj (g.symm.trans g')
    rw [List.map_cons, List.map_cons, List.zip_cons_cons, List.zip_cons_cons, List.filterMap_cons, List.filterMap_cons]
    have hPi : (valA φ P).infinity = P.infinity := rfl
    generalize hq : GS.prepare (valA (val2 φ) Q) = q at *
    dsimp only
    rw [hPi]
    cases hP : P.infinity
    · cases o with
      | none =>
        cases hqi : q.infinity
        · rw [hqi] at e'; simp at e'
        · simpa using g''
      | some l =>
        cases hqi : q.infinity
        · rw [hqi] at e'
          simp only [Option.map_some, Bool.false_eq_true, if_false, Option.some.injEq] at e'
          simp only [Option.map_some, Bool.not_false, Bool.false_eq_true, if_false, Bool.and_self, if_true]
          rw [← g'', ← e']
          rfl
        · rw [hqi] at e'; simp at e'
    · simp only [if_true, Bool.not_true, Bool.false_and, Bool.false_eq_true, if_false]
      exact g''

theorem val_multiMillerLoop (h : Models φ) (h2 : (2 : S) ≠ 0) {B : Fp2 R} (hB : val2 φ B = ⟨4, 4⟩) (a : List (Affine R)) (b : List (Affine (Fp2 R))) :
    (multiMillerLoop B loopBits a b).map (val12 φ) = GS.multiMillerLoop (a.map (valA φ)) (b.map (valA (val2 φ))) := by
  have h12 := models12 h
  rw [multiMillerLoop, GS.multiMillerLoop, List.length_map, List.length_map]
  split
  · rfl
  · obtain ⟨qs, e, e'⟩ := val_pairs h h2 hB a b
    rw [e]
    simp only [Option.bind_eq_bind, Option.bind_some]
    rw [← e', valP, chunks4_map, ← mapM_map (f := millerChunk loopBits (1 : Fp12 R)) (v := val12 φ) (fun l => by rw [val_millerChunk h, h12.one]; rfl)]
    cases (chunks4 _).mapM (millerChunk loopBits (1 : Fp12 R)) with
    | none => rfl
    | some fs =>
      simp only [Option.map_some, Option.bind_some]
      show some _ = some _
      rw [val12_conj h, foldl_map12 h, h12.one]

variable (hc : Fintype.card S = p381)
include hc

theorem val_multiPairing (h : Models φ) {B : Fp2 R} (hB : val2 φ B = ⟨4, 4⟩) {T1 T2 : FrobTable R} (hT1 : TableFor φ T1 1) (hT2 : TableFor φ T2 2)
    (a : List (Affine R)) (b : List (Affine (Fp2 R))) :
    (multiPairing B T1 T2 a b).map (val12 φ) = arkMultiPairing (a.map (valA φ)) (b.map (valA (val2 φ))) := by
  rw [multiPairing, arkMultiPairing, ← val_multiMillerLoop h (p381_two (fq_zero hc)) hB]
  cases multiMillerLoop B loopBits a b with
  | none => rfl
  | some f =>
    simp only [Option.map_some, Option.bind_eq_bind, Option.bind_some]
    rw [val12_finalExponentiation hc h hT1 hT2]


end

end GS.Tower
