import Verif.Model.Commit
import Verif.Lemmas.Com

/-!
# What it means for a commitment to open to a value

`r • c` on `Com G` is `Com.scalarMul c r` (instance in `Verif/Lemmas/Com.lean`).
-/

namespace GS
variable {F G : Type} [Field F] [AddCommGroup G] [Module F G]

/-- The commitment to the group element `x` with randomness `r` under the key `[u0, u1]`:
`(O, x) + r.1 u0 + r.2 u1`. -/
def groupCom (u0 u1 : Com G) (x : G) (r : F × F) : Com G := ⟨0, x⟩ + r.1 • u0 + r.2 • u1

/-- The commitment to the scalar `x` with randomness `r` under the key `[u0, u1, ..]` and
generator `g`: `x (u1 + (O, g)) + r u0`. -/
def scalarCom (u0 u1 : Com G) (g : G) (x r : F) : Com G := x • (u1 + ⟨0, g⟩) + r • u0

/-- `c` is a list of commitments to the group elements `xs`, made with the randomness recorded in `c`. -/
def Commit.OpensGroup (u : List (Com G)) (c : Commit F G) (xs : List G) : Prop :=
  ∃ u0 u1 u', u = u0 :: u1 :: u' ∧ ∃ R : List (F × F), R.length = xs.length ∧
    c.rand = R.map (fun r => [r.1, r.2]) ∧ c.coms = List.zipWith (groupCom u0 u1) xs R

/-- `c` is a list of commitments to the scalars `xs`, made with the randomness recorded in `c`. -/
def Commit.OpensScalar (u : List (Com G)) (g : G) (c : Commit F G) (xs : List F) : Prop :=
  ∃ u0 u1 u', u = u0 :: u1 :: u' ∧ ∃ R : List F, R.length = xs.length ∧
    c.rand = R.map (fun r => [r]) ∧ c.coms = List.zipWith (scalarCom u0 u1 g) xs R

/-- The commitment value `c` can be opened to the group element `x` with some randomness. -/
def CanOpenGroup (F : Type) [Field F] [Module F G] (u : List (Com G)) (c : Com G) (x : G) : Prop :=
  ∃ u0 u1 u', u = u0 :: u1 :: u' ∧ ∃ r : F × F, c = groupCom u0 u1 x r

/-- The commitment value `c` can be opened to the scalar `x` with some randomness. -/
def CanOpenScalar (u : List (Com G)) (g : G) (c : Com G) (x : F) : Prop :=
  ∃ u0 u1 u', u = u0 :: u1 :: u' ∧ ∃ r : F, c = scalarCom u0 u1 g x r

end GS
