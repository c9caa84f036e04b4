import Verif.Spec.Tamper
import Verif.Lemmas.Accept

/-! The verification equation as a function of one of its elements. -/

namespace GS

section
variable {F A B C : Type} [Field F] [AddCommGroup A] [Module F A] [AddCommGroup B] [Module F B] [AddCommGroup C]
  [Module F C]

theorem sum_zipWith_set_left {α β : Type} (f : α → β → C) (a : α) (b : β) (a0 : α) : ∀ (k : Nat) (l : List α) (r : List β),
    l[k]? = some a0 → r[k]? = some b →
    (List.zipWith f (l.set k a) r).sum = (List.zipWith f l r).sum + (f a b - f a0 b)
  | _, [], _, h, _ => by simp at h
  | _, _ :: _, [], _, h => by simp at h
  | 0, x :: l, y :: r, h, h' => by
      simp at h h'; subst h; subst h'
      simp only [List.set_cons_zero, List.zipWith_cons_cons, List.sum_cons]; abel
  | k + 1, x :: l, y :: r, h, h' => by
      simp only [List.getElem?_cons_succ] at h h'
      simp only [List.set_cons_succ, List.zipWith_cons_cons, List.sum_cons]
      rw [sum_zipWith_set_left f a b a0 k l r h h', add_assoc]

theorem sum_zipWith_set_right {α β : Type} (f : α → β → C) (a : α) (b b0 : β) (k : Nat) (l : List α) (r : List β)
    (h : l[k]? = some a) (h' : r[k]? = some b0) :
    (List.zipWith f l (r.set k b)).sum = (List.zipWith f l r).sum + (f a b - f a b0) := by
  rw [List.zipWith_comm, sum_zipWith_set_left (fun b a => f a b) b a b0 k r l h' h, List.zipWith_comm (f := f)]

theorem sum_smul_right (f : A →ₗ[F] B →ₗ[F] C) (x : A) (row : List F) (d : List B) :
    (List.zipWith (fun g y => g • f x y) row d).sum = f x (List.zipWith (fun g y => g • y) row d).sum := by
  induction row generalizing d with
  | nil => simp
  | cons g row ih => cases d <;> simp [ih]

theorem sum_smul_left (f : A →ₗ[F] B →ₗ[F] C) (y : B) (j : Nat) (c : List A) (gamma : Matrix F) :
    (List.zipWith (fun x (row : List F) => row.getD j 0 • f x y) c gamma).sum =
      f (List.zipWith (fun x (row : List F) => row.getD j 0 • x) c gamma).sum y := by
  induction c generalizing gamma with
  | nil => simp
  | cons x c ih =>
    cases gamma with
    | nil => simp
    | cons row gamma =>
      simp only [List.zipWith_cons_cons, List.sum_cons, ih, map_add, map_smul, LinearMap.add_apply, LinearMap.smul_apply]

theorem sum_row_set (f : A →ₗ[F] B →ₗ[F] C) (x : A) (y y0 : B) (j : Nat) (row : List F) (d : List B)
    (h : d[j]? = some y0) :
    (List.zipWith (fun g y => g • f x y) row (d.set j y)).sum =
      (List.zipWith (fun g y => g • f x y) row d).sum + row.getD j 0 • f x (y - y0) := by
  rcases hg : row[j]? with _ | g
  · have : List.zipWith (fun g y => g • f x y) row (d.set j y) = List.zipWith (fun g y => g • f x y) row d := by
      refine List.ext_getElem? fun k => ?_
      simp only [List.getElem?_zipWith, List.getElem?_set]
      by_cases hk : j = k
      · subst hk; simp [hg]
      · simp [hk]
    simp [this, List.getD, hg]
  · rw [sum_zipWith_set_right _ g y y0 j row d hg h]
    simp [List.getD, hg, smul_sub]

theorem equLhs_set_x (f : A →ₗ[F] B →ₗ[F] C) (a c : List A) (b d : List B) (gamma : Matrix F) (i : Nat) (x x0 : A) (b0 : B)
    (row : List F) (h : c[i]? = some x0) (hb : b[i]? = some b0) (hg : gamma[i]? = some row) :
    equLhs (fun x y => f x y) a (c.set i x) b d gamma = equLhs (fun x y => f x y) a c b d gamma +
      f (x - x0) (b0 + (List.zipWith (fun g y => g • y) row d).sum) := by
  simp only [equLhs]
  rw [sum_zipWith_set_left _ x b0 x0 i c b h hb, sum_zipWith_set_left _ x row x0 i c gamma h hg,
    sum_smul_right, sum_smul_right]
  simp only [map_add, map_sub, LinearMap.sub_apply]
  abel

theorem equLhs_set_y (f : A →ₗ[F] B →ₗ[F] C) (a c : List A) (b d : List B) (gamma : Matrix F) (j : Nat) (y y0 : B) (a0 : A)
    (h : d[j]? = some y0) (ha : a[j]? = some a0) :
    equLhs (fun x y => f x y) a c b (d.set j y) gamma = equLhs (fun x y => f x y) a c b d gamma +
      f (a0 + (List.zipWith (fun x (row : List F) => row.getD j 0 • x) c gamma).sum) (y - y0) := by
  have h3 : (List.zipWith (fun x (row : List F) => (List.zipWith (fun g y => g • f x y) row (d.set j y)).sum) c gamma).sum =
      (List.zipWith (fun x (row : List F) => (List.zipWith (fun g y => g • f x y) row d).sum) c gamma).sum +
      f (List.zipWith (fun x (row : List F) => row.getD j 0 • x) c gamma).sum (y - y0) := by
    rw [← sum_smul_left]
    clear ha
    induction c generalizing gamma with
    | nil => simp
    | cons x c ih =>
      cases gamma with
      | nil => simp
      | cons row gamma =>
        simp only [List.zipWith_cons_cons, List.sum_cons]
        rw [ih, sum_row_set f x y y0 j row d h]
        abel
  simp only [equLhs]
  rw [sum_zipWith_set_right _ a0 y y0 j a d ha h, h3]
  simp only [map_add, map_sub, LinearMap.add_apply]
  abel

theorem equLhs_set_a (f : A →ₗ[F] B →ₗ[F] C) (a c : List A) (b d : List B) (gamma : Matrix F) (j : Nat) (x x0 : A) (y : B)
    (h : a[j]? = some x0) (hd : d[j]? = some y) :
    equLhs (fun x y => f x y) (a.set j x) c b d gamma = equLhs (fun x y => f x y) a c b d gamma + f (x - x0) y := by
  simp only [equLhs]
  rw [sum_zipWith_set_left _ x y x0 j a d h hd]
  simp only [map_sub, LinearMap.sub_apply]
  abel

theorem equLhs_set_b (f : A →ₗ[F] B →ₗ[F] C) (a c : List A) (b d : List B) (gamma : Matrix F) (i : Nat) (y y0 : B) (x : A)
    (h : b[i]? = some y0) (hc : c[i]? = some x) :
    equLhs (fun x y => f x y) a c (b.set i y) d gamma = equLhs (fun x y => f x y) a c b d gamma + f x (y - y0) := by
  simp only [equLhs]
  rw [sum_zipWith_set_right _ x y y0 i c b hc h]
  simp only [map_sub]
  abel

theorem equLhs_set_gamma (f : A →ₗ[F] B →ₗ[F] C) (a c : List A) (b d : List B) (gamma : Matrix F) (i j : Nat) (row : List F)
    (g g0 : F) (x : A) (y : B) (hr : gamma[i]? = some row) (hg : row[j]? = some g0) (hc : c[i]? = some x)
    (hd : d[j]? = some y) :
    equLhs (fun x y => f x y) a c b d (gamma.set i (row.set j g)) =
      equLhs (fun x y => f x y) a c b d gamma + (g - g0) • f x y := by
  simp only [equLhs]
  rw [sum_zipWith_set_right _ x (row.set j g) row i c gamma hc hr, sum_zipWith_set_left _ g y g0 j row d hg hd, sub_smul]
  abel

end

variable {F G1 G2 GT : Type} [Field F] [AddCommGroup G1] [Module F G1] [AddCommGroup G2] [Module F G2]
  [AddCommGroup GT] [Module F GT] {e : G1 →ₗ[F] G2 →ₗ[F] GT}

theorem tensor_eq_zero (he : PrimeGroups e) (c : Com G1) (d : Com G2) : tensor e c d = 0 ↔ c = 0 ∨ d = 0 := by
  constructor
  · intro h
    have h0 : e c.c0 d.c0 = 0 := congrArg ComT.t0 h
    have h1 : e c.c0 d.c1 = 0 := congrArg ComT.t1 h
    have h2 : e c.c1 d.c0 = 0 := congrArg ComT.t2 h
    have h3 : e c.c1 d.c1 = 0 := congrArg ComT.t3 h
    by_contra hn
    rw [not_or] at hn
    obtain ⟨hc, hd⟩ := hn
    have k0 := he.nondeg _ _ h0
    have k1 := he.nondeg _ _ h1
    have k2 := he.nondeg _ _ h2
    have k3 := he.nondeg _ _ h3
    have z1 : ¬ (c.c0 = 0 ∧ c.c1 = 0) := fun h => hc (Com.ext h.1 h.2)
    have z2 : ¬ (d.c0 = 0 ∧ d.c1 = 0) := fun h => hd (Com.ext h.1 h.2)
    tauto
  · rintro (rfl | rfl)
    · rw [tensor_eq, map_zero, LinearMap.zero_apply]
    · rw [tensor_eq, map_zero]

section
variable {a c u theta : List (Com G1)} {b d v pi : List (Com G2)} {gamma : Matrix F} {t : ComT GT}

theorem gsEquation_lhs {a' c' : List (Com G1)} {b' d' : List (Com G2)} {gamma' : Matrix F} {δ : ComT GT}
    (h : gsEquation e a c b d gamma t u pi theta v)
    (hl : equLhs (tensor e) a' c' b' d' gamma' = equLhs (tensor e) a c b d gamma + δ) :
    gsEquation e a' c' b' d' gamma' t u pi theta v ↔ δ = 0 := by
  unfold gsEquation at h ⊢
  rw [hl, h]
  exact add_eq_left

theorem gsEquation_set_pi (he : PrimeGroups e) (h : gsEquation e a c b d gamma t u pi theta v) {k : Nat} {u0 : Com G1}
    {p p0 : Com G2} (hu : u[k]? = some u0) (hp : pi[k]? = some p0) :
    gsEquation e a c b d gamma t u (pi.set k p) theta v ↔ p = p0 ∨ u0 = 0 := by
  unfold gsEquation at h ⊢
  rw [sum_zipWith_set_right _ u0 p p0 k u pi hu hp, h,
    show tensor e u0 p - tensor e u0 p0 = tensor e u0 (p - p0) by simp only [tensor_eq, map_sub]]
  rw [← sub_eq_zero (a := p), or_comm, ← tensor_eq_zero he, ← sub_eq_zero]
  constructor
  · intro h
    rw [← neg_eq_zero, ← h]; abel
  · intro h
    rw [h]; abel

theorem gsEquation_set_theta (he : PrimeGroups e) (h : gsEquation e a c b d gamma t u pi theta v) {k : Nat} {v0 : Com G2}
    {q q0 : Com G1} (hv : v[k]? = some v0) (hq : theta[k]? = some q0) :
    gsEquation e a c b d gamma t u pi (theta.set k q) v ↔ q = q0 ∨ v0 = 0 := by
  unfold gsEquation at h ⊢
  rw [sum_zipWith_set_left _ q v0 q0 k theta v hq hv, h,
    show tensor e q v0 - tensor e q0 v0 = tensor e (q - q0) v0 by
      simp only [tensor_eq, map_sub, LinearMap.sub_apply]]
  rw [← sub_eq_zero (a := q), ← tensor_eq_zero he, ← sub_eq_zero]
  constructor
  · intro h
    rw [← neg_eq_zero, ← h]; abel
  · intro h
    rw [h]; abel

theorem gsEquation_set_target {δ : ComT GT} (h : gsEquation e a c b d gamma t u pi theta v) :
    gsEquation e a c b d gamma (t + δ) u pi theta v ↔ δ = 0 := by
  unfold gsEquation at h ⊢
  rw [h, ← sub_eq_zero]
  constructor
  · intro h
    rw [← neg_eq_zero, ← h]; abel
  · intro h
    rw [h]; abel

theorem gsEquation_set_x (he : PrimeGroups e) (h : gsEquation e a c b d gamma t u pi theta v) {i : Nat} {x x0 : Com G1}
    {b0 : Com G2} {row : List F} (hx : c[i]? = some x0) (hb : b[i]? = some b0) (hg : gamma[i]? = some row) :
    gsEquation e a (c.set i x) b d gamma t u pi theta v ↔ x = x0 ∨ coefX b0 row d = 0 := by
  rw [gsEquation_lhs h (equLhs_set_x (ComT.pairL e) a c b d gamma i x x0 b0 row hx hb hg), ← sub_eq_zero (a := x)]
  exact tensor_eq_zero he _ _

theorem gsEquation_set_y (he : PrimeGroups e) (h : gsEquation e a c b d gamma t u pi theta v) {j : Nat} {y y0 : Com G2}
    {a0 : Com G1} (hy : d[j]? = some y0) (ha : a[j]? = some a0) :
    gsEquation e a c b (d.set j y) gamma t u pi theta v ↔ y = y0 ∨ coefY a0 gamma j c = 0 := by
  rw [gsEquation_lhs h (equLhs_set_y (ComT.pairL e) a c b d gamma j y y0 a0 hy ha), ← sub_eq_zero (a := y), or_comm]
  exact tensor_eq_zero he _ _

theorem gsEquation_set_a (he : PrimeGroups e) (h : gsEquation e a c b d gamma t u pi theta v) {j : Nat} {x x0 : Com G1}
    {y : Com G2} (hx : a[j]? = some x0) (hd : d[j]? = some y) :
    gsEquation e (a.set j x) c b d gamma t u pi theta v ↔ x = x0 ∨ y = 0 := by
  rw [gsEquation_lhs h (equLhs_set_a (ComT.pairL e) a c b d gamma j x x0 y hx hd), ← sub_eq_zero (a := x)]
  exact tensor_eq_zero he _ _

theorem gsEquation_set_b (he : PrimeGroups e) (h : gsEquation e a c b d gamma t u pi theta v) {i : Nat} {y y0 : Com G2}
    {x : Com G1} (hy : b[i]? = some y0) (hc : c[i]? = some x) :
    gsEquation e a c (b.set i y) d gamma t u pi theta v ↔ y = y0 ∨ x = 0 := by
  rw [gsEquation_lhs h (equLhs_set_b (ComT.pairL e) a c b d gamma i y y0 x hy hc), ← sub_eq_zero (a := y), or_comm]
  exact tensor_eq_zero he _ _

theorem gsEquation_set_gamma (he : PrimeGroups e) (h : gsEquation e a c b d gamma t u pi theta v) {i j : Nat}
    {row : List F} {g g0 : F} {x : Com G1} {y : Com G2} (hr : gamma[i]? = some row) (hg : row[j]? = some g0)
    (hc : c[i]? = some x) (hd : d[j]? = some y) :
    gsEquation e a c b d (gamma.set i (row.set j g)) t u pi theta v ↔ g = g0 ∨ x = 0 ∨ y = 0 := by
  rw [gsEquation_lhs h (equLhs_set_gamma (ComT.pairL e) a c b d gamma i j row g g0 x y hr hg hc hd),
    ← sub_eq_zero (a := g), smul_eq_zero]
  exact or_congr Iff.rfl (tensor_eq_zero he _ _)

end

end GS
