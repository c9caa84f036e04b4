import Verif.Spec.Hiding
import Verif.Spec.Equation
import Verif.Lemmas.Com

/-!
# Simulators

They see the CRS, one or both trapdoors, the equation and the numbers of variables, but no witness. On a CRS
built with `prepare_simulated_hinding_key`, the trapdoors are the scalars `t1`, `t2` drawn by `generate_crs`.
They commit to zeros with the library's functions, draw `pi` (or `theta`) at random and solve the verification
equation for the other.
-/

namespace GS
variable {F G1 G2 GT : Type} [Field F] [AddCommGroup G1] [Module F G1] [AddCommGroup G2] [Module F G2]
  [AddCommGroup GT] [Module F GT] {ρ : Type} [Rng ρ F G1 G2]

/-- Simulated proof of a MSMEG1 equation for commitments to zeros. -/
def MSMEG1.simulateProof (equ : MSMEG1 F G1) (t2 : F) (xc : Commit F G1) (yc : Commit F G2) (crs : CRS G1 G2 GT)
    (rng : ρ) : Res (EquProof F G1 G2 × ρ) := do
  let (p0, rng) := Rng.randF (F := F) G1 G2 rng
  let (p1, rng) := Rng.randF (F := F) G1 G2 rng
  let u0 ← idx crs.u 0
  let u1 ← idx crs.u 1
  let v0 ← idx crs.v 0
  let theta := equLhs (fun (c : Com G1) (s : F) => s • c) (equ.a_consts.map fun a => ⟨0, a⟩) xc.coms
    (equ.b_consts.map fun b => b * t2) yc.rand.flatten equ.gamma - t2 • ⟨0, equ.target⟩ - (p0 • u0 + p1 • u1)
  pure (⟨[p0 • v0, p1 • v0], [theta], .MultiScalarG1, []⟩, rng)

/-- Simulated commitments and proof for a MSMEG1 equation with `m`, `n` variables. -/
def MSMEG1.simulate (equ : MSMEG1 F G1) (m n : Nat) (t2 : F) (crs : CRS G1 G2 GT) (rng : ρ) :
    Res (CProof F G1 G2 × ρ) := do
  let (xc, rng) ← batchCommitG1 (List.replicate m 0) crs rng
  let (yc, rng) ← batchCommitScalarToB2 (List.replicate n 0) crs rng
  let (pf, rng) ← equ.simulateProof t2 xc yc crs rng
  pure (⟨xc, yc, [pf]⟩, rng)

/-- Simulated proof of a MSMEG2 equation for commitments to zeros. -/
def MSMEG2.simulateProof (equ : MSMEG2 F G2) (t1 : F) (xc : Commit F G1) (yc : Commit F G2) (crs : CRS G1 G2 GT)
    (rng : ρ) : Res (EquProof F G1 G2 × ρ) := do
  let (p0, rng) := Rng.randF (F := F) G1 G2 rng
  let (p1, rng) := Rng.randF (F := F) G1 G2 rng
  let u0 ← idx crs.u 0
  let v0 ← idx crs.v 0
  let v1 ← idx crs.v 1
  let pi := equLhs (fun (r : F) (d : Com G2) => r • d) (equ.a_consts.map fun a => a * t1) xc.rand.flatten
    (equ.b_consts.map fun b => ⟨0, b⟩) yc.coms equ.gamma - t1 • ⟨0, equ.target⟩ - (p0 • v0 + p1 • v1)
  pure (⟨[pi], [p0 • u0, p1 • u0], .MultiScalarG2, []⟩, rng)

/-- Simulated commitments and proof for a MSMEG2 equation with `m`, `n` variables. -/
def MSMEG2.simulate (equ : MSMEG2 F G2) (m n : Nat) (t1 : F) (crs : CRS G1 G2 GT) (rng : ρ) :
    Res (CProof F G1 G2 × ρ) := do
  let (xc, rng) ← batchCommitScalarToB1 (List.replicate m 0) crs rng
  let (yc, rng) ← batchCommitG2 (List.replicate n 0) crs rng
  let (pf, rng) ← equ.simulateProof t1 xc yc crs rng
  pure (⟨xc, yc, [pf]⟩, rng)

/-- Simulated proof of a quadratic equation for commitments to zeros. -/
def QuadEqu.simulateProof (equ : QuadEqu F) (t1 t2 : F) (xc : Commit F G1) (yc : Commit F G2) (crs : CRS G1 G2 GT)
    (rng : ρ) : Res (EquProof F G1 G2 × ρ) := do
  let (p, rng) := Rng.randF (F := F) G1 G2 rng
  let u0 ← idx crs.u 0
  let v0 ← idx crs.v 0
  let theta := equLhs (fun (c : Com G1) (s : F) => s • c) (equ.a_consts.map fun a => a • t1 • u0) xc.coms
    (equ.b_consts.map fun b => b * t2) yc.rand.flatten equ.gamma - t2 • equ.target • t1 • u0 - p • u0
  pure (⟨[p • v0], [theta], .Quadratic, []⟩, rng)

/-- Simulated commitments and proof for a quadratic equation with `m`, `n` variables. -/
def QuadEqu.simulate (equ : QuadEqu F) (m n : Nat) (t1 t2 : F) (crs : CRS G1 G2 GT) (rng : ρ) :
    Res (CProof F G1 G2 × ρ) := do
  let (xc, rng) ← batchCommitScalarToB1 (List.replicate m 0) crs rng
  let (yc, rng) ← batchCommitScalarToB2 (List.replicate n 0) crs rng
  let (pf, rng) ← equ.simulateProof t1 t2 xc yc crs rng
  pure (⟨xc, yc, [pf]⟩, rng)

end GS
