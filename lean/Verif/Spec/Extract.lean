import Verif.Spec.Crs
import Verif.Spec.Equation

/-!
# Extraction

Whoever runs `generate_crs` and keeps the scalars `a1`, `a2` drawn there can open commitments. A scalar `x` is only recovered
as `x · g`.
-/

namespace GS
variable {F G1 G2 GT : Type} [Field F] [AddCommGroup G1] [Module F G1] [AddCommGroup G2] [Module F G2]
  [AddCommGroup GT] [Module F GT]

/-- The scalars `a1`, `a2` which `generate_crs` draws from `rng` (src/generator.rs:90-91). -/
def extractionKey (F : Type) {ρ : Type} (G1 G2 : Type) [Rng ρ F G1 G2] (rng : ρ) : F × F :=
  let rng := (Rng.randG1 F (G1 := G1) G2 rng).2
  let rng := (Rng.randG2 F G1 (G2 := G2) rng).2
  let a1 := Rng.randF (F := F) G1 G2 rng
  let a2 := Rng.randF (F := F) G1 G2 a1.2
  (a1.1, a2.1)

/-- Opening of a commitment (ElGamal decryption). -/
def extractWith {G : Type} [AddCommGroup G] [Module F G] (a : F) (c : Com G) : G := c.c1 - a • c.c0

/-- The equation between pairings obtained by multiplying right variables and constants by `g2`. -/
def MSMEG1.lifted (e : G1 →ₗ[F] G2 →ₗ[F] GT) (g2 : G2) (equ : MSMEG1 F G1) : PPE F G1 G2 GT :=
  ⟨equ.a_consts, equ.b_consts.map (· • g2), equ.gamma, e equ.target g2⟩

/-- The equation between pairings obtained by multiplying left variables and constants by `g1`. -/
def MSMEG2.lifted (e : G1 →ₗ[F] G2 →ₗ[F] GT) (g1 : G1) (equ : MSMEG2 F G2) : PPE F G1 G2 GT :=
  ⟨equ.a_consts.map (· • g1), equ.b_consts, equ.gamma, e g1 equ.target⟩

/-- The equation between pairings obtained by multiplying left variables and constants by `g1`, right ones by `g2`. -/
def QuadEqu.lifted (e : G1 →ₗ[F] G2 →ₗ[F] GT) (g1 : G1) (g2 : G2) (equ : QuadEqu F) : PPE F G1 G2 GT :=
  ⟨equ.a_consts.map (· • g1), equ.b_consts.map (· • g2), equ.gamma, equ.target • e g1 g2⟩

end GS
