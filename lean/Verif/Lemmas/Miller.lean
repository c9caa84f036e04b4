import Verif.Model.Miller
import Verif.Lemmas.Target

/-! # What the loops of `multi_miller_loop` compute, pair by pair -/

open Polynomial

namespace GS
variable {K : Type} [Field K]

/-- The inclusion of the quadratic extension. -/
noncomputable def inj2 (K : Type) [Field K] : Fq2 K →+* Fq12 K := (algebraMap (Fq6 K) (Fq12 K)).comp (algebraMap (Fq2 K) (Fq6 K))

/-- The inclusion of the prime field. -/
noncomputable def inj1 (K : Type) [Field K] : K →+* Fq12 K := (inj2 K).comp (algebraMap K (Fq2 K))

/-- The root by which the last extension is made. -/
noncomputable def rootW (K : Type) [Field K] : Fq12 K := ⟨0, 1⟩

theorem rootW_sq : rootW K * rootW K = algebraMap (Fq6 K) (Fq12 K) (xiFq12 K) := by
  ext <;> simp [rootW]

theorem mkFq6_eq (c : Fq2 K × Fq2 K × Fq2 K) :
    mkFq6 c = algebraMap (Fq2 K) (Fq6 K) c.1 + algebraMap (Fq2 K) (Fq6 K) c.2.1 * xiFq12 K + algebraMap (Fq2 K) (Fq6 K) c.2.2 * xiFq12 K ^ 2 := by
  rw [mkFq6, map_add, map_add, map_mul, map_mul, map_pow, AdjoinRoot.mk_X]
  rfl

/-- The value of a line with these coefficients. -/
noncomputable def ellValue (c : EllCoeff K) (x y : K) : Fq12 K :=
  inj2 K c.1 + inj1 K x * inj2 K c.2.1 * rootW K ^ 2 + inj1 K y * inj2 K c.2.2 * rootW K ^ 3

theorem ofFq6 (a : Fq6 K) : algebraMap (Fq6 K) (Fq12 K) a = ⟨a, 0⟩ := rfl

theorem mulBy014_eq (f : Fq12 K) (c0 c1 c4 : Fq2 K) :
    mulBy014 f c0 c1 c4 = f * (inj2 K c0 + inj2 K c1 * rootW K ^ 2 + inj2 K c4 * rootW K ^ 3) := by
  have e : inj2 K c0 + inj2 K c1 * rootW K ^ 2 + inj2 K c4 * rootW K ^ 3 =
      (⟨mkFq6 (c0, c1, 0), mkFq6 (0, c4, 0)⟩ : Fq12 K) := by
    rw [mkFq6_eq, mkFq6_eq, pow_succ (rootW K) 2, sq, rootW_sq]
    simp only [inj2, RingHom.comp_apply, ofFq6, rootW]
    ext <;> simp
  have e' : mkFq6 (c0, c1 + c4, 0) = mkFq6 (c0, c1, 0) + mkFq6 (0, c4, 0) := by
    rw [mkFq6_eq, mkFq6_eq, mkFq6_eq]
    simp only [map_add, map_zero]
    ring
  rw [e, mulBy014, e']
  ext
  · simp; ring
  · simp; ring

theorem smul_inj (x : K) (c : Fq2 K) : inj2 K (x • c) = inj1 K x * inj2 K c := by
  rw [Algebra.smul_def, map_mul]
  rfl

theorem ell_eq (f : Fq12 K) (c : EllCoeff K) (x y : K) : ell f c ⟨x, y, false⟩ = some (f * ellValue c x y) := by
  rw [ell, if_neg (by simp), mulBy014_eq, smul_inj, smul_inj]
  rfl

/-- The loop for one pair. -/
noncomputable def single (x y : K) (qx qy : Fq2 K) : List Bool → G2Hom K → Fq12 K → Fq12 K
  | [], _, f => f
  | i :: l, R, f =>
    let f := f * f * ellValue R.double.1 x y
    let R := R.double.2
    if i then single x y qx qy l (R.add qx qy).2 (f * ellValue (R.add qx qy).1 x y) else single x y qx qy l R f

/-- A pair of points, and how far the loop is with it. -/
structure Progress (K : Type) [Field K] where
  (x y : K)
  (qx qy : Fq2 K)
  R : G2Hom K
  f : Fq12 K

theorem ellAll_eq (l : List (Progress K)) (c : Progress K → EllCoeff K) (cs : Progress K → List (EllCoeff K)) : ∀ f : Fq12 K,
    ellAll f (l.map fun s => ((⟨s.x, s.y, false⟩ : Affine K), c s :: cs s)) =
      some (f * (l.map fun s => ellValue (c s) s.x s.y).prod, l.map fun s => ((⟨s.x, s.y, false⟩ : Affine K), cs s)) := by
  induction l with
  | nil => intro f; simp [ellAll]
  | cons s l ih =>
    intro f
    rw [List.map_cons, ellAll, ell_eq]
    show (ellAll _ _ >>= _) = _
    rw [ih]
    simp [mul_assoc]

/-- One pass of the loop for one pair. -/
noncomputable def Progress.dbl (s : Progress K) : Progress K := { s with R := s.R.double.2, f := s.f * s.f * ellValue s.R.double.1 s.x s.y }

@[inherit_doc Progress.dbl]
noncomputable def Progress.plus (s : Progress K) : Progress K := { s with R := (s.R.add s.qx s.qy).2, f := s.f * ellValue (s.R.add s.qx s.qy).1 s.x s.y }

/-- What is left of the coefficients. -/
noncomputable def Progress.left (b : List Bool) (s : Progress K) : Affine K × List (EllCoeff K) := (⟨s.x, s.y, false⟩, lineCoeffs s.qx s.qy b s.R)

theorem prod_map_sq (l : List (Progress K)) :
    (l.map fun s => s.f).prod * (l.map fun s => s.f).prod * (l.map fun s => ellValue s.R.double.1 s.x s.y).prod = (l.map fun s => s.dbl.f).prod := by
  induction l with
  | nil => simp
  | cons s l ih =>
    rw [List.map_cons, List.map_cons, List.map_cons, List.prod_cons, List.prod_cons, List.prod_cons, ← ih, Progress.dbl]
    ring

theorem prod_map_plus (l : List (Progress K)) :
    (l.map fun s => s.f).prod * (l.map fun s => ellValue (s.R.add s.qx s.qy).1 s.x s.y).prod = (l.map fun s => s.plus.f).prod := by
  induction l with
  | nil => simp
  | cons s l ih =>
    rw [List.map_cons, List.map_cons, List.map_cons, List.prod_cons, List.prod_cons, List.prod_cons, ← ih, Progress.plus]
    ring

theorem millerChunk_eq (b : List Bool) : ∀ l : List (Progress K),
    millerChunk b (l.map fun s => s.f).prod (l.map (Progress.left b)) = some (l.map fun s => single s.x s.y s.qx s.qy b s.R s.f).prod := by
  induction b with
  | nil => intro l; rfl
  | cons i b ih =>
    intro l
    cases i with
    | false =>
      have e : l.map (Progress.left (false :: b)) = l.map fun s => ((⟨s.x, s.y, false⟩ : Affine K), s.R.double.1 :: lineCoeffs s.qx s.qy b s.R.double.2) := rfl
      rw [millerChunk, e, ellAll_eq, prod_map_sq]
      show millerChunk b _ _ = _
      have := ih (l.map Progress.dbl)
      simp only [List.map_map] at this
      exact this
    | true =>
      have e : l.map (Progress.left (true :: b)) = l.map fun s => ((⟨s.x, s.y, false⟩ : Affine K),
        s.R.double.1 :: (s.R.double.2.add s.qx s.qy).1 :: lineCoeffs s.qx s.qy b (s.R.double.2.add s.qx s.qy).2) := rfl
      rw [millerChunk, e, ellAll_eq, prod_map_sq]
      show (ellAll _ _ >>= _) = _
      have e2 := ellAll_eq (l.map Progress.dbl) (fun s => (s.R.add s.qx s.qy).1) (fun s => lineCoeffs s.qx s.qy b (s.R.add s.qx s.qy).2) (l.map fun s => s.dbl.f).prod
      have e3 := prod_map_plus (l.map Progress.dbl)
      rw [List.map_map] at e2 e3
      have e3' : (l.map fun s => s.dbl.f).prod * (((l.map Progress.dbl).map fun s => ellValue (s.R.add s.qx s.qy).1 s.x s.y)).prod = _ := e3
      rw [e3', List.map_map, List.map_map] at e2
      refine Eq.trans (congrArg (· >>= _) e2) ?_
      show millerChunk b _ _ = _
      have := ih ((l.map Progress.dbl).map Progress.plus)
      simp only [List.map_map] at this
      exact this

/-- The value of Miller's loop for a pair; 1 if one of the points is zero. -/
noncomputable def millerValue (P : Affine K) (Q : Affine (Fq2 K)) : Fq12 K :=
  if P.infinity || Q.infinity then 1 else single P.x P.y Q.x Q.y loopBits ⟨Q.x, Q.y, 1⟩ 1

theorem chunks4_flatten {α : Type} : ∀ l : List α, (chunks4 l).flatten = l := by
  intro l
  induction l using chunks4.induct with
  | case1 => rfl
  | case2 a b c d l ih => rw [chunks4, List.flatten_cons, ih]; rfl
  | case3 l h1 h2 => rw [chunks4]; · simp
                     · exact h1
                     · exact h2

theorem chunks4_map {α β : Type} (f : α → β) : ∀ l : List α, chunks4 (l.map f) = (chunks4 l).map (List.map f) := by
  intro l
  induction l using chunks4.induct with
  | case1 => rfl
  | case2 a b c d l ih => simp only [List.map_cons, chunks4, ih]; rfl
  | case3 l h1 h2 =>
    rcases l with _ | ⟨a, _ | ⟨b, _ | ⟨c, _ | ⟨d, l⟩⟩⟩⟩
    · rfl
    · rfl
    · rfl
    · rfl
    · exact absurd rfl (h2 a b c d l)

theorem foldl_mul_prod (l : List (Fq12 K)) : ∀ a : Fq12 K, l.foldl (· * ·) a = a * l.prod := by
  induction l with
  | nil => intro a; simp
  | cons x l ih => intro a; rw [List.foldl_cons, ih, List.prod_cons, mul_assoc]

theorem mapM_some {α β : Type} (f : α → Option β) (g : α → β) : ∀ l : List α, (∀ a ∈ l, f a = some (g a)) → l.mapM f = some (l.map g) := by
  intro l
  induction l with
  | nil => intro _; rfl
  | cons a l ih => intro h; simp [List.mapM_cons, h a (by simp), ih fun b hb => h b (by simp [hb])]

/-- Where the loop starts with a pair. -/
noncomputable def Progress.start (pq : Affine K × Affine (Fq2 K)) : Progress K := ⟨pq.1.x, pq.1.y, pq.2.x, pq.2.y, ⟨pq.2.x, pq.2.y, 1⟩, 1⟩

theorem prepared_eq (l : List (Affine K × Affine (Fq2 K))) :
    (l.filterMap fun pq => if !pq.1.infinity && !(prepare pq.2).infinity then some (pq.1, (prepare pq.2).ell_coeffs) else none) =
      ((l.filter fun pq => !pq.1.infinity && !pq.2.infinity).map Progress.start).map (Progress.left loopBits) := by
  induction l with
  | nil => rfl
  | cons pq l ih =>
    obtain ⟨⟨px, py, pi⟩, ⟨qx, qy, qi⟩⟩ := pq
    rw [List.filterMap_cons, ih]
    cases pi <;> cases qi <;> simp [prepare, Progress.start, Progress.left]

theorem chunks_value (bs : List Bool) (l : List (Affine K × Affine (Fq2 K))) :
    (chunks4 ((l.map Progress.start).map (Progress.left bs))).mapM (millerChunk bs 1) =
      some ((chunks4 (l.map Progress.start)).map fun c => (c.map fun s => single s.x s.y s.qx s.qy bs s.R s.f).prod) := by
  rw [chunks4_map, List.mapM_map]
  apply mapM_some
  intro c hc
  rw [Function.comp_apply, ← millerChunk_eq]
  congr 1
  symm
  apply List.prod_eq_one
  intro x hx
  obtain ⟨s, hs, rfl⟩ := List.mem_map.mp hx
  have : s ∈ (chunks4 (l.map Progress.start)).flatten := List.mem_flatten.mpr ⟨c, hc, hs⟩
  rw [chunks4_flatten] at this
  obtain ⟨pq, -, rfl⟩ := List.mem_map.mp this
  rfl

theorem chunks_prod (bs : List Bool) (l : List (Affine K × Affine (Fq2 K))) :
    ((chunks4 (l.map Progress.start)).map fun c => (c.map fun s => single s.x s.y s.qx s.qy bs s.R s.f).prod).prod =
      (l.map fun pq => single pq.1.x pq.1.y pq.2.x pq.2.y bs ⟨pq.2.x, pq.2.y, 1⟩ 1).prod := by
  rw [show (fun c : List (Progress K) => (c.map fun s => single s.x s.y s.qx s.qy bs s.R s.f).prod) =
      List.prod ∘ List.map (fun s : Progress K => single s.x s.y s.qx s.qy bs s.R s.f) from rfl,
    ← List.map_map, ← List.prod_flatten, ← List.map_flatten, chunks4_flatten, List.map_map]
  rfl

theorem filter_prod {α G : Type} [CommMonoid G] (p : α → Bool) (g : α → G) (l : List α) :
    ((l.filter p).map g).prod = (l.map fun a => if p a then g a else 1).prod := by
  induction l with
  | nil => rfl
  | cons a l ih => cases h : p a <;> simp [h, ih]

theorem millerValue_eq (pq : Affine K × Affine (Fq2 K)) : millerValue pq.1 pq.2 =
    if !pq.1.infinity && !pq.2.infinity then single pq.1.x pq.1.y pq.2.x pq.2.y loopBits ⟨pq.2.x, pq.2.y, 1⟩ 1 else 1 := by
  rw [millerValue]
  cases pq.1.infinity <;> cases pq.2.infinity <;> rfl

/-- `multi_miller_loop` panics if and only if the lists differ in length, and else returns the conjugate of the product of the values for the pairs. -/
theorem multiMillerLoop_eq (a : List (Affine K)) (b : List (Affine (Fq2 K))) :
    multiMillerLoop a b = if a.length = b.length then some (star ((a.zip b).map fun pq => millerValue pq.1 pq.2).prod) else none := by
  rw [multiMillerLoop]
  by_cases h : a.length = b.length
  · rw [if_neg (by simpa using h), if_pos h]
    simp only [prepared_eq, chunks_value, Option.pure_def, Option.bind_eq_bind, Option.bind_some]
    rw [foldl_mul_prod, one_mul, chunks_prod, filter_prod]
    simp only [millerValue_eq]
  · rw [if_pos (by simpa using h), if_neg h]

end GS
