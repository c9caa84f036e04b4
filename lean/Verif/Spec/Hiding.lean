import Verif.Spec.Domain
import Verif.Spec.Tape
import Mathlib.Probability.Distributions.Uniform

/-!
# Views and their distribution

A run of a randomized function on a tape `t` of `N` scalars is the run with the random number generator that
returns the scalars of `t` in order (`tapeRng`).
-/

namespace GS
variable {F G1 G2 : Type}

/-- What a verifier sees: everything but the recorded randomness, see `CProof.publicPart`. -/
abbrev View (G1 G2 : Type) : Type :=
  List (Com G1) × List (Com G2) × List (List (Com G2) × List (Com G1) × EquType)

/-- The view of the proof computed by `run` on the tape `t`. -/
def viewOn {N : Nat} (run : List F → Res (CProof F G1 G2 × List F)) (t : Fin N → F) : Res (View G1 G2) :=
  (run (List.ofFn t)).map fun r => r.1.publicPart

/-- The values of the commitments computed by `run` on the tape `t`. -/
def comsOn {G : Type} {N : Nat} (run : List F → Res (Commit F G × List F)) (t : Fin N → F) : Res (List (Com G)) :=
  (run (List.ofFn t)).map fun r => r.1.coms

/-- The distribution of `view` when the tape is uniform. -/
noncomputable def dist [Fintype F] [Nonempty F] {α : Type} {N : Nat} (view : (Fin N → F) → α) : PMF α :=
  (PMF.uniformOfFintype (Fin N → F)).map view

/-- `view` and `view'` return on all tapes, and a renaming of tapes carries one to the other. -/
def SameViews {α : Type} {N : Nat} (view view' : (Fin N → F) → Res α) : Prop :=
  ∃ φ : (Fin N → F) ≃ (Fin N → F), ∀ t, ∃ v, view t = .ok v ∧ view' (φ t) = .ok v

end GS
