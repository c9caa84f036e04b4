import Verif.Lemmas.Curve
import Mathlib.Tactic.FieldSimp
import Mathlib.Tactic.LinearCombination

/-!
# Multiples of points, computed

Double and add on `y² = x³ + b` in Jacobian coordinates, with numbers modulo `p` or pairs of such numbers. What comes out is right in every field in which
`p` is zero, provided the last coordinate is not.
-/

set_option linter.unusedSectionVars false

namespace GS
open WeierstrassCurve.Affine

/-- Arithmetic on representations of elements of a field. -/
structure ModOps (α : Type) where
  add : α → α → α
  sub : α → α → α
  mul : α → α → α
  isZero : α → Bool

/-- Arithmetic modulo `p`. -/
def natOps (p : Nat) : ModOps Nat where
  add a b := (a + b) % p
  sub a b := (a + (p - b % p)) % p
  mul a b := a * b % p
  isZero a := Nat.beq a 0

/-- Arithmetic of pairs modulo `p`, with `u² = -1`. -/
def pairOps (p : Nat) : ModOps (Nat × Nat) where
  add a b := ((a.1 + b.1) % p, (a.2 + b.2) % p)
  sub a b := ((a.1 + (p - b.1 % p)) % p, (a.2 + (p - b.2 % p)) % p)
  mul a b := ((a.1 * b.1 + (p - a.2 * b.2 % p)) % p, (a.1 * b.2 + a.2 * b.1) % p)
  isZero a := Nat.beq a.1 0 && Nat.beq a.2 0

/-- The operations are those of the field. -/
structure ModOps.Right {α K : Type} [Field K] (o : ModOps α) (ev : α → K) : Prop where
  add : ∀ a b, ev (o.add a b) = ev a + ev b
  sub : ∀ a b, ev (o.sub a b) = ev a - ev b
  mul : ∀ a b, ev (o.mul a b) = ev a * ev b

namespace Jac
variable {α : Type} (o : ModOps α)

/-- Doubling on `y² = x³ + b` in Jacobian coordinates. -/
def dbl (S : α × α × α) : α × α × α :=
  let X := S.1; let Y := S.2.1; let Z := S.2.2
  let Y2 := o.mul Y Y
  let XY2 := o.mul X Y2
  let S2 := o.add XY2 XY2
  let S4 := o.add S2 S2
  let X2 := o.mul X X
  let M := o.add X2 (o.add X2 X2)
  let X' := o.sub (o.mul M M) (o.add S4 S4)
  let Y4 := o.mul Y2 Y2
  let Y42 := o.add Y4 Y4
  let Y44 := o.add Y42 Y42
  let Y' := o.sub (o.mul M (o.sub S4 X')) (o.add Y44 Y44)
  let YZ := o.mul Y Z
  (X', Y', o.add YZ YZ)

/-- Addition of a point with `Z = 1`. -/
def addm (x y : α) (S : α × α × α) : α × α × α :=
  let X := S.1; let Y := S.2.1; let Z := S.2.2
  let Z2 := o.mul Z Z
  let H := o.sub (o.mul x Z2) X
  let R := o.sub (o.mul y (o.mul Z Z2)) Y
  let H2 := o.mul H H
  let H3 := o.mul H H2
  let V := o.mul X H2
  let X' := o.sub (o.mul R R) (o.add H3 (o.add V V))
  let Y' := o.sub (o.mul R (o.sub V X')) (o.mul Y H3)
  (X', Y', o.mul Z H)

/-- Double and add, for the given binary digits; it may stop when the last coordinate is zero. -/
def run (x y : α) : List Bool → α × α × α → α × α × α
  | [], S => S
  | b :: l, S =>
    let T := dbl o S
    let T := if b then addm o x y T else T
    if o.isZero T.2.2 then T else run x y l T

end Jac

/-- The number with the given binary digits, the highest first, after `k`. -/
def bitsNat : Nat → List Bool → Nat
  | k, [] => k
  | k, b :: l => bitsNat (2 * k + if b then 1 else 0) l

/-- Binary digits, the highest first. -/
def digits2 : Nat → Nat → List Bool → List Bool
  | 0, _, l => l
  | f + 1, n, l => if Nat.beq n 0 then l else digits2 f (n / 2) (Nat.beq (n % 2) 1 :: l)

theorem natOps_right {K : Type} [Field K] {p : Nat} (h0 : 0 < p) (hp : (p : K) = 0) : (natOps p).Right (fun n => (n : K)) := by
  have hm : ∀ n : Nat, ((n % p : Nat) : K) = n := fun n => by
    conv_rhs => rw [← Nat.div_add_mod n p]
    push_cast
    rw [hp]; ring
  refine ⟨fun a b => ?_, fun a b => ?_, fun a b => ?_⟩
  · simp only [natOps, hm]; push_cast; ring
  · simp only [natOps, hm]
    rw [Nat.cast_add, Nat.cast_sub (Nat.mod_lt _ h0).le, hm, hp]; ring
  · simp only [natOps, hm]; push_cast; ring

theorem pairOps_right {K : Type} [Field K] {p : Nat} (h0 : 0 < p) (hp : (p : K) = 0) {u : K} (hu : u * u = -1) :
    (pairOps p).Right (fun n => (n.1 : K) + n.2 * u) := by
  have hm : ∀ n : Nat, ((n % p : Nat) : K) = n := fun n => by
    conv_rhs => rw [← Nat.div_add_mod n p]
    push_cast
    rw [hp]; ring
  refine ⟨fun a b => ?_, fun a b => ?_, fun a b => ?_⟩
  · simp only [pairOps, hm]; push_cast; ring
  · simp only [pairOps, hm]
    rw [Nat.cast_add, Nat.cast_sub (Nat.mod_lt _ h0).le, Nat.cast_add, Nat.cast_sub (Nat.mod_lt _ h0).le, hm, hm, hp]; ring
  · simp only [pairOps, hm]
    rw [Nat.cast_add, Nat.cast_sub (Nat.mod_lt _ h0).le, hm, hp]
    push_cast
    linear_combination (-(a.2 * b.2 : K)) * hu

section
variable {α K : Type} [Field K] [DecidableEq K] {E : SWCurve K} {o : ModOps α} {ev : α → K}

/-- The coordinates represent the point. -/
def JRep (E : SWCurve K) (ev : α → K) (S : α × α × α) (P : E.curve.Point) : Prop :=
  ev S.2.2 ≠ 0 ∧ ∃ x y h, P = .some x y h ∧ ev S.1 = x * ev S.2.2 ^ 2 ∧ ev S.2.1 = y * ev S.2.2 ^ 3

theorem SWCurve.negY_eq (x y : K) : E.curve.negY x y = -y := by simp [WeierstrassCurve.Affine.negY, SWCurve.curve]

theorem SWCurve.double_some (ha : E.a = 0) {x y : K} (h : E.curve.Nonsingular x y) (h2 : (2 : K) * y ≠ 0) {x' y' : K}
    (hx : x' * (2 * y) ^ 2 = (3 * x ^ 2) ^ 2 - 2 * x * (2 * y) ^ 2) (hy : y' * (2 * y) = 3 * x ^ 2 * (x - x') - y * (2 * y)) :
    ∃ h', Point.some x y h + Point.some x y h = (Point.some x' y' h' : E.curve.Point) := by
  have hne : y ≠ E.curve.negY x y := by
    rw [negY_eq]; intro hh; apply h2; linear_combination hh
  have hs : E.curve.slope x x y y = 3 * x ^ 2 / (2 * y) := by
    rw [WeierstrassCurve.Affine.slope_of_Y_ne rfl hne, negY_eq]
    simp only [SWCurve.curve, ha]
    congr 1 <;> ring
  have e1 : E.curve.addX x x (E.curve.slope x x y y) = x' := by
    rw [hs]
    simp only [SWCurve.curve, WeierstrassCurve.Affine.addX]
    have hl : 3 * x ^ 2 / (2 * y) * (2 * y) = 3 * x ^ 2 := div_mul_cancel₀ _ h2
    generalize 3 * x ^ 2 / (2 * y) = l at hl
    apply mul_right_cancel₀ (pow_ne_zero 2 h2)
    linear_combination (l * (2 * y) + 3 * x ^ 2) * hl - hx
  have e2 : E.curve.addY x x y (E.curve.slope x x y y) = y' := by
    rw [WeierstrassCurve.Affine.addY, WeierstrassCurve.Affine.negAddY, e1, negY_eq, hs]
    have hl : 3 * x ^ 2 / (2 * y) * (2 * y) = 3 * x ^ 2 := div_mul_cancel₀ _ h2
    generalize 3 * x ^ 2 / (2 * y) = l at hl
    apply mul_right_cancel₀ h2
    linear_combination (x - x') * hl - hy
  rw [Point.add_self_of_Y_ne hne]
  subst e1 e2
  exact ⟨_, rfl⟩

theorem SWCurve.add_some {x y x0 y0 : K} (h : E.curve.Nonsingular x y) (h0 : E.curve.Nonsingular x0 y0) (hd : x0 - x ≠ 0)
    {x' y' : K} (hx : (x' + x + x0) * (x0 - x) ^ 2 = (y0 - y) ^ 2) (hy : (y' + y) * (x0 - x) = (y0 - y) * (x - x')) :
    ∃ h', Point.some x y h + Point.some x0 y0 h0 = (Point.some x' y' h' : E.curve.Point) := by
  have hne : x ≠ x0 := fun hh => hd (by rw [hh, sub_self])
  have hs : E.curve.slope x x0 y y0 = (y - y0) / (x - x0) := WeierstrassCurve.Affine.slope_of_X_ne hne
  have hd' : x - x0 ≠ 0 := sub_ne_zero.mpr hne
  have hl : (y - y0) / (x - x0) * (x - x0) = y - y0 := div_mul_cancel₀ _ hd'
  have e1 : E.curve.addX x x0 (E.curve.slope x x0 y y0) = x' := by
    rw [hs]
    simp only [SWCurve.curve, WeierstrassCurve.Affine.addX]
    generalize (y - y0) / (x - x0) = l at hl
    apply mul_right_cancel₀ (pow_ne_zero 2 hd')
    linear_combination (l * (x - x0) + (y - y0)) * hl - hx
  have e2 : E.curve.addY x x0 y (E.curve.slope x x0 y y0) = y' := by
    rw [WeierstrassCurve.Affine.addY, WeierstrassCurve.Affine.negAddY, e1, negY_eq, hs]
    generalize (y - y0) / (x - x0) = l at hl
    apply mul_right_cancel₀ hd'
    linear_combination (x - x') * hl + hy
  rw [Point.add_of_X_ne hne]
  subst e1 e2
  exact ⟨_, rfl⟩

theorem JRep.dbl (ho : o.Right ev) (ha : E.a = 0) {S : α × α × α} {P : E.curve.Point} (hS : JRep E ev S P)
    (hz : ev (Jac.dbl o S).2.2 ≠ 0) : JRep E ev (Jac.dbl o S) (P + P) := by
  obtain ⟨X, Y, Z⟩ := S
  obtain ⟨h0, x, y, h, rfl, hX, hY⟩ := hS
  refine ⟨hz, ?_⟩
  simp only [Jac.dbl, ho.add, ho.sub, ho.mul] at *
  rw [hX, hY] at *
  generalize ev Z = Z at *
  have h2 : 2 * y ≠ 0 := by
    intro hh; apply hz; linear_combination Z ^ 4 * hh
  have hx' : ((3 * x ^ 2) ^ 2 - 2 * x * (2 * y) ^ 2) / (2 * y) ^ 2 * (2 * y) ^ 2 = (3 * x ^ 2) ^ 2 - 2 * x * (2 * y) ^ 2 :=
    div_mul_cancel₀ _ (pow_ne_zero 2 h2)
  generalize ((3 * x ^ 2) ^ 2 - 2 * x * (2 * y) ^ 2) / (2 * y) ^ 2 = x' at hx'
  have hy' : (3 * x ^ 2 * (x - x') - y * (2 * y)) / (2 * y) * (2 * y) = 3 * x ^ 2 * (x - x') - y * (2 * y) := div_mul_cancel₀ _ h2
  generalize (3 * x ^ 2 * (x - x') - y * (2 * y)) / (2 * y) = y' at hy'
  obtain ⟨h', e'⟩ := SWCurve.double_some ha h h2 hx' hy'
  refine ⟨x', y', h', e', ?_, ?_⟩
  · linear_combination (-Z ^ 8) * hx'
  · linear_combination (-Z ^ 12 * (4 * y ^ 2)) * hy' + 3 * x ^ 2 * Z ^ 12 * hx'

theorem JRep.addm (ho : o.Right ev) {S : α × α × α} {P : E.curve.Point} (hS : JRep E ev S P) {x0 y0 : α}
    (h0 : E.curve.Nonsingular (ev x0) (ev y0)) (hz : ev (Jac.addm o x0 y0 S).2.2 ≠ 0) :
    JRep E ev (Jac.addm o x0 y0 S) (P + .some _ _ h0) := by
  obtain ⟨X, Y, Z⟩ := S
  obtain ⟨hZ, x, y, h, rfl, hX, hY⟩ := hS
  refine ⟨hz, ?_⟩
  simp only [Jac.addm, ho.add, ho.sub, ho.mul] at *
  rw [hX, hY] at *
  generalize ev Z = Z at *
  generalize ev x0 = x0 at *
  generalize ev y0 = y0 at *
  have hd : x0 - x ≠ 0 := by
    intro hh; apply hz; linear_combination Z ^ 3 * hh
  have hx' : ((y0 - y) ^ 2 / (x0 - x) ^ 2 - x - x0 + x + x0) * (x0 - x) ^ 2 = (y0 - y) ^ 2 := by
    rw [show (y0 - y) ^ 2 / (x0 - x) ^ 2 - x - x0 + x + x0 = (y0 - y) ^ 2 / (x0 - x) ^ 2 by ring]
    exact div_mul_cancel₀ _ (pow_ne_zero 2 hd)
  generalize (y0 - y) ^ 2 / (x0 - x) ^ 2 - x - x0 = x' at hx'
  have hy' : ((y0 - y) * (x - x') / (x0 - x) - y + y) * (x0 - x) = (y0 - y) * (x - x') := by
    rw [sub_add_cancel]
    exact div_mul_cancel₀ _ hd
  generalize (y0 - y) * (x - x') / (x0 - x) - y = y' at hy'
  obtain ⟨h', e'⟩ := SWCurve.add_some h h0 hd hx' hy'
  refine ⟨x', y', h', e', ?_, ?_⟩
  · linear_combination (-Z ^ 6) * hx'
  · linear_combination (-Z ^ 9 * (x0 - x) ^ 2) * hy' + (y0 - y) * Z ^ 9 * hx'

theorem Jac.dbl_z (ho : o.Right ev) {S : α × α × α} (hz : ev (Jac.dbl o S).2.2 ≠ 0) : ev S.2.2 ≠ 0 := by
  intro h
  simp only [Jac.dbl, ho.add, ho.mul, h] at hz
  simp at hz

theorem Jac.addm_z (ho : o.Right ev) {S : α × α × α} {x y : α} (hz : ev (Jac.addm o x y S).2.2 ≠ 0) : ev S.2.2 ≠ 0 := by
  intro h
  simp only [Jac.addm, ho.mul, h] at hz
  simp at hz

theorem Jac.run_z (ho : o.Right ev) {x y : α} (l : List Bool) (S : α × α × α) (hz : ev (Jac.run o x y l S).2.2 ≠ 0) : ev S.2.2 ≠ 0 := by
  induction l generalizing S with
  | nil => exact hz
  | cons b l ih =>
    have key : ev (if b then Jac.addm o x y (Jac.dbl o S) else Jac.dbl o S).2.2 ≠ 0 → ev S.2.2 ≠ 0 := by
      cases b
      · exact fun h => dbl_z ho h
      · exact fun h => dbl_z ho (addm_z ho h)
    rw [Jac.run] at hz
    by_cases hn : o.isZero (if b then Jac.addm o x y (Jac.dbl o S) else Jac.dbl o S).2.2 = true
    · rw [if_pos hn] at hz
      exact key hz
    · rw [if_neg hn] at hz
      exact key (ih _ hz)

theorem JRep.run (ho : o.Right ev) (h0 : ∀ a, o.isZero a = true → ev a = 0) (ha : E.a = 0) {x y : α}
    (hP : E.curve.Nonsingular (ev x) (ev y)) (l : List Bool) (k : Nat) (S : α × α × α) (hS : JRep E ev S (k • .some _ _ hP))
    (hz : ev (Jac.run o x y l S).2.2 ≠ 0) : JRep E ev (Jac.run o x y l S) (bitsNat k l • .some _ _ hP) := by
  induction l generalizing S k with
  | nil => exact hS
  | cons b l ih =>
    rw [Jac.run] at hz ⊢
    by_cases hn : o.isZero (if b then Jac.addm o x y (Jac.dbl o S) else Jac.dbl o S).2.2 = true
    · rw [if_pos hn] at hz
      exact absurd (h0 _ hn) hz
    · rw [if_neg hn] at hz ⊢
      refine ih (2 * k + if b then 1 else 0) _ ?_ hz
      have hz' := Jac.run_z ho l _ hz
      cases b
      · have := hS.dbl ho ha hz'
        simpa [two_mul, add_nsmul] using this
      · have := (hS.dbl ho ha (Jac.addm_z ho hz')).addm ho hP hz'
        simpa [two_mul, add_nsmul] using this

/-- `n • P = 0`, as computed with `n - 1`. -/
theorem SWCurve.killed (ho : o.Right ev) (h0 : ∀ a, o.isZero a = true → ev a = 0) (ha : E.a = 0) {x y one : α} (h1 : ev one = 1)
    (hP : E.curve.Nonsingular (ev x) (ev y)) (l : List Bool) (S : α × α × α) (hS : Jac.run o x y l (x, y, one) = S)
    (hz : ev S.2.2 ≠ 0) (hx : ev S.1 = ev x * ev S.2.2 ^ 2) (hy : ev S.2.1 = -ev y * ev S.2.2 ^ 3) :
    (bitsNat 1 l + 1) • (.some _ _ hP : E.curve.Point) = 0 := by
  have hr : JRep E ev (x, y, one) ((1 : Nat) • .some _ _ hP) :=
    ⟨by simp [h1], ev x, ev y, hP, one_nsmul _, by simp [h1], by simp [h1]⟩
  have := hr.run ho h0 ha hP l 1 _ (by rw [hS]; exact hz)
  rw [hS] at this
  obtain ⟨-, x', y', h', e, hx', hy'⟩ := this
  have e1 : ev x = x' := mul_right_cancel₀ (pow_ne_zero 2 hz) (hx.symm.trans hx')
  have e2 : -ev y = y' := mul_right_cancel₀ (pow_ne_zero 3 hz) (hy.symm.trans hy')
  rw [add_nsmul, one_nsmul, e, add_eq_zero_iff_eq_neg, Point.neg_some]
  subst e1 e2
  simp only [SWCurve.negY_eq]

end
end GS
