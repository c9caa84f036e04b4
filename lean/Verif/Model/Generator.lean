import Verif.Model.Com
import Verif.Model.Rng

/-!
# CRS generation, src/generator.rs
-/

namespace GS
variable {F G1 G2 GT : Type} [Field F] [AddCommGroup G1] [Module F G1] [AddCommGroup G2] [Module F G2]
  [AddCommGroup GT] [Module F GT]

/-- `prepare_real_binding_key`, src/generator.rs:45-60. -/
def prepareRealBindingKey (_g1_gen : G1) (_g2_gen : G2) (q1 : G1) (t1 : F) (q2 : G2) (t2 : F) :
    G1 × G2 :=
  let v1 := t1 • q1 - 0
  let v2 := t2 • q2 - 0
  (v1, v2)

/-- `prepare_simulated_hinding_key`, src/generator.rs:62-77 (not called by the library). -/
def prepareSimulatedHidingKey (g1_gen : G1) (g2_gen : G2) (q1 : G1) (t1 : F) (q2 : G2) (t2 : F) :
    G1 × G2 :=
  let v1 := t1 • q1 - g1_gen
  let v2 := t2 • q2 - g2_gen
  (v1, v2)

/-- The body of `generate_crs` after the random draws, src/generator.rs:95-117, with the choice of
`prepare_*_key` (called on line 101) left as a parameter, so that it also describes the CRS obtained
with `prepare_simulated_hinding_key`. -/
def assembleCrs (e : G1 →ₗ[F] G2 →ₗ[F] GT)
    (prepare : G1 → G2 → G1 → F → G2 → F → G1 × G2)
    (p1 : G1) (p2 : G2) (a1 a2 t1 t2 : F) : CRS G1 G2 GT :=
  let q1 := a1 • p1
  let q2 := a2 • p2
  let u1 := t1 • p1
  let u2 := t2 • p2
  let v := prepare p1 p2 q1 t1 q2 t2
  let v1 := v.1
  let v2 := v.2
  let u11 : Com G1 := ⟨p1, q1⟩
  let u12 : Com G1 := ⟨u1, v1⟩
  let u21 : Com G2 := ⟨p2, q2⟩
  let u22 : Com G2 := ⟨u2, v2⟩
  { u := [u11, u12]
    v := [u21, u22]
    g1_gen := p1
    g2_gen := p2
    gt_gen := e p1 p2 }

/-- `generate_crs`, src/generator.rs:80-119. -/
def generateCrs {ρ : Type} [Rng ρ F G1 G2] (e : G1 →ₗ[F] G2 →ₗ[F] GT) (rng : ρ) :
    CRS G1 G2 GT × ρ :=
  let (p1, rng) := Rng.randG1 F G2 rng
  let (p2, rng) := Rng.randG2 F G1 rng
  let (a1, rng) := Rng.randF G1 G2 rng
  let (a2, rng) := Rng.randF G1 G2 rng
  let (t1, rng) := Rng.randF G1 G2 rng
  let (t2, rng) := Rng.randF G1 G2 rng
  (assembleCrs e prepareRealBindingKey p1 p2 a1 a2 t1 t2, rng)

end GS
