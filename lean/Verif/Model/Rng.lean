import Verif.Model.Basic

/-!
# Random number generators

`R: Rng` together with `UniformRand` for the field and the groups (src/generator.rs:86-93,
src/prover/commit.rs:64): drawing returns an element and the new generator state.
No law is assumed.
-/

namespace GS

/-- A generator with state `ρ` from which field and group elements can be drawn. The draws of
src/generator.rs:86-93 and src/prover/commit.rs:64. -/
class Rng (ρ F G1 G2 : Type) where
  randF : ρ → F × ρ
  randG1 : ρ → G1 × ρ
  randG2 : ρ → G2 × ρ

/-- `n` draws of field elements in a row. src/prover/commit.rs:64. -/
def drawF {ρ F : Type} (randF : ρ → F × ρ) : Nat → ρ → List F × ρ
  | 0, s => ([], s)
  | n + 1, s =>
    let (a, s) := randF s
    let (l, s) := drawF randF n s
    (a :: l, s)

end GS
