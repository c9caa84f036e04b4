import Verif.Model.Statement
import Verif.Model.Com
import Mathlib.Algebra.BigOperators.Group.List.Basic

/-!
# What the four kinds of equation say

The left-hand side of every Groth-Sahai equation is
`Σ_j f(a_j, y_j) + Σ_i f(x_i, b_i) + Σ_i Σ_j γ_ij f(x_i, y_j)` where `f` is the
bilinear map of the equation type:
the pairing (PPE), `(x, y) ↦ y·x` (MSMEG1), `(x, y) ↦ x·y` (MSMEG2), multiplication (QuadEqu);
cf. the comments in /repo/src/statement.rs:111-185.
-/

namespace GS

/-- `Σ_j f(a_j, y_j) + Σ_i f(x_i, b_i) + Σ_i Σ_j γ_ij f(x_i, y_j)`. -/
def equLhs {F A B C : Type} [AddCommMonoid C] [SMul F C] (f : A → B → C)
    (a x : List A) (b y : List B) (gamma : Matrix F) : C :=
  (List.zipWith (fun a y => f a y) a y).sum
  + (List.zipWith (fun x b => f x b) x b).sum
  + (List.zipWith (fun x row => (List.zipWith (fun g y => g • f x y) row y).sum) x gamma).sum

variable {F G1 G2 GT : Type} [Field F] [AddCommGroup G1] [Module F G1] [AddCommGroup G2] [Module F G2]
  [AddCommGroup GT] [Module F GT]

/-- `x`, `y` satisfy the pairing product equation. -/
def PPE.Holds (e : G1 →ₗ[F] G2 →ₗ[F] GT) (equ : PPE F G1 G2 GT) (x : List G1) (y : List G2) : Prop :=
  equLhs (fun x y => e x y) equ.a_consts x equ.b_consts y equ.gamma = equ.target

/-- `x`, `y` satisfy the multi-scalar multiplication equation in `G1`. -/
def MSMEG1.Holds (equ : MSMEG1 F G1) (x : List G1) (y : List F) : Prop :=
  equLhs (fun (x : G1) (y : F) => y • x) equ.a_consts x equ.b_consts y equ.gamma = equ.target

/-- `x`, `y` satisfy the multi-scalar multiplication equation in `G2`. -/
def MSMEG2.Holds (equ : MSMEG2 F G2) (x : List F) (y : List G2) : Prop :=
  equLhs (fun (x : F) (y : G2) => x • y) equ.a_consts x equ.b_consts y equ.gamma = equ.target

/-- `x`, `y` satisfy the quadratic equation. -/
def QuadEqu.Holds (equ : QuadEqu F) (x y : List F) : Prop :=
  equLhs (fun x y => x * y) equ.a_consts x equ.b_consts y equ.gamma = equ.target

/-- The sizes of an equation match `m` variables on the left and `n` on the right. -/
structure PPE.Dims (equ : PPE F G1 G2 GT) (m n : Nat) : Prop where
  a : equ.a_consts.length = n
  b : equ.b_consts.length = m
  rows : equ.gamma.length = m
  cols : ∀ r ∈ equ.gamma, r.length = n

/-- The sizes of an equation match `m` variables on the left and `n` on the right. -/
structure MSMEG1.Dims (equ : MSMEG1 F G1) (m n : Nat) : Prop where
  a : equ.a_consts.length = n
  b : equ.b_consts.length = m
  rows : equ.gamma.length = m
  cols : ∀ r ∈ equ.gamma, r.length = n

/-- The sizes of an equation match `m` variables on the left and `n` on the right. -/
structure MSMEG2.Dims (equ : MSMEG2 F G2) (m n : Nat) : Prop where
  a : equ.a_consts.length = n
  b : equ.b_consts.length = m
  rows : equ.gamma.length = m
  cols : ∀ r ∈ equ.gamma, r.length = n

/-- The sizes of an equation match `m` variables on the left and `n` on the right. -/
structure QuadEqu.Dims (equ : QuadEqu F) (m n : Nat) : Prop where
  a : equ.a_consts.length = n
  b : equ.b_consts.length = m
  rows : equ.gamma.length = m
  cols : ∀ r ∈ equ.gamma, r.length = n

/-- What is assumed of the bilinear group where a property needs more than bilinearity:
both source groups are cyclic with every nonzero element a generator (prime order), and
the pairing is non-degenerate. -/
structure PrimeGroups (e : G1 →ₗ[F] G2 →ₗ[F] GT) : Prop where
  cyclic1 : ∀ g : G1, g ≠ 0 → ∀ x, ∃ k : F, x = k • g
  cyclic2 : ∀ g : G2, g ≠ 0 → ∀ x, ∃ k : F, x = k • g
  nondeg : ∀ x y, e x y = 0 → x = 0 ∨ y = 0

end GS
