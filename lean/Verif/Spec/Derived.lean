import Verif.Spec.Opening
import Verif.Spec.Matrix
import Verif.Spec.Equation
import Mathlib.Data.Matrix.Mul

/-!
# Values computed from committed values

Anyone can compute linear combinations of commitments and add the images of public values to them. The results are commitments to
the same combinations of the committed values. An equation about the combinations is an equation about the committed values.
-/

namespace GS
variable {F G1 G2 GT V : Type} [Field F] [AddCommGroup V] [Module F V] [AddCommGroup G1] [Module F G1] [AddCommGroup G2] [Module F G2]
  [AddCommGroup GT] [Module F GT] {k l m n : Nat}

/-- The combinations `∑ j, A i j • x j + δ i`. -/
def affine (A : _root_.Matrix (Fin k) (Fin m) F) (δ : Fin k → V) (x : Fin m → V) (i : Fin k) : V := ∑ j, A i j • x j + δ i

/-- The constants of an equation in terms of the original variables. -/
def pull (A : _root_.Matrix (Fin k) (Fin m) F) (γ : _root_.Matrix (Fin k) (Fin l) F) (ε : Fin l → V) (b : Fin k → V) (i : Fin m) : V :=
  ∑ i', A i' i • (b i' + ∑ j, γ i' j • ε j)

/-- The pairing product equation with constants `a`, `b`, `γ` and target `t` about `affine A δ x` and `affine B ε y`, as an equation
about `x` and `y`. -/
def PPE.along (e : G1 →ₗ[F] G2 →ₗ[F] GT) (A : _root_.Matrix (Fin k) (Fin m) F) (B : _root_.Matrix (Fin l) (Fin n) F)
    (δ : Fin k → G1) (ε : Fin l → G2) (a : Fin l → G1) (b : Fin k → G2) (γ : _root_.Matrix (Fin k) (Fin l) F) (t : GT) :
    PPE F G1 G2 GT :=
  ⟨List.ofFn (pull B γ.transpose δ a), List.ofFn (pull A γ ε b), rows (A.transpose * γ * B),
    t - (∑ j, e (a j) (ε j) + ∑ i, e (δ i) (b i) + ∑ i, ∑ j, γ i j • e (δ i) (ε j))⟩

@[inherit_doc PPE.along]
def MSMEG1.along (A : _root_.Matrix (Fin k) (Fin m) F) (B : _root_.Matrix (Fin l) (Fin n) F)
    (δ : Fin k → G1) (ε : Fin l → F) (a : Fin l → G1) (b : Fin k → F) (γ : _root_.Matrix (Fin k) (Fin l) F) (t : G1) :
    MSMEG1 F G1 :=
  ⟨List.ofFn (pull B γ.transpose δ a), List.ofFn (pull A γ ε b), rows (A.transpose * γ * B),
    t - (∑ j, ε j • a j + ∑ i, b i • δ i + ∑ i, ∑ j, γ i j • ε j • δ i)⟩

@[inherit_doc PPE.along]
def MSMEG2.along (A : _root_.Matrix (Fin k) (Fin m) F) (B : _root_.Matrix (Fin l) (Fin n) F)
    (δ : Fin k → F) (ε : Fin l → G2) (a : Fin l → F) (b : Fin k → G2) (γ : _root_.Matrix (Fin k) (Fin l) F) (t : G2) :
    MSMEG2 F G2 :=
  ⟨List.ofFn (pull B γ.transpose δ a), List.ofFn (pull A γ ε b), rows (A.transpose * γ * B),
    t - (∑ j, a j • ε j + ∑ i, δ i • b i + ∑ i, ∑ j, γ i j • δ i • ε j)⟩

@[inherit_doc PPE.along]
def QuadEqu.along (A : _root_.Matrix (Fin k) (Fin m) F) (B : _root_.Matrix (Fin l) (Fin n) F)
    (δ : Fin k → F) (ε : Fin l → F) (a : Fin l → F) (b : Fin k → F) (γ : _root_.Matrix (Fin k) (Fin l) F) (t : F) : QuadEqu F :=
  ⟨List.ofFn (pull B γ.transpose δ a), List.ofFn (pull A γ ε b), rows (A.transpose * γ * B),
    t - (∑ j, a j * ε j + ∑ i, δ i * b i + ∑ i, ∑ j, γ i j * (δ i * ε j))⟩

end GS
