import Verif.Spec.Joint

/-!
# Selective disclosure

After publishing commitments and proofs for a statement, the prover opens the commitments of some variables to somebody:
for each of them it hands over the value and the row of randomness that the commit function recorded.
-/

namespace GS
variable {F G1 G2 : Type}

/-- The positions of the variables that are opened, for each of the four lists of variables. -/
structure Picks where
  X : List Nat
  x : List Nat
  Y : List Nat
  y : List Nat

/-- The openings of the variables at the positions `I`: value and recorded randomness (nothing where there is no such
variable). -/
def openAt {α G : Type} (I : List Nat) (xs : List α) (c : Commit F G) : List (Option α × Option (List F)) :=
  I.map fun i => (xs[i]?, c.rand[i]?)

/-- All openings that are handed over. -/
abbrev Openings (F G1 G2 : Type) : Type :=
  List (Option G1 × Option (List F)) × List (Option F × Option (List F)) ×
    List (Option G2 × Option (List F)) × List (Option F × Option (List F))

/-- The openings of the picked variables. -/
def openPicks (P : Picks) (w : Vars F G1 G2) (c : VarComs F G1 G2) : Openings F G1 G2 :=
  (openAt P.X w.X c.X, openAt P.x w.x c.x, openAt P.Y w.Y c.Y, openAt P.y w.y c.y)

/-- Two assignments have the same values for the picked variables. -/
structure Picks.Agree (P : Picks) (w w' : Vars F G1 G2) : Prop where
  X : ∀ i ∈ P.X, w.X[i]? = w'.X[i]?
  x : ∀ i ∈ P.x, w.x[i]? = w'.x[i]?
  Y : ∀ i ∈ P.Y, w.Y[i]? = w'.Y[i]?
  y : ∀ i ∈ P.y, w.y[i]? = w'.y[i]?

/-- What somebody sees to whom the picked variables are opened, when `run` is the prover and `t` the tape: the published
commitments and proofs, and the openings. -/
def disclosedOn {N : Nat} (P : Picks) (w : Vars F G1 G2)
    (run : List F → Res ((VarComs F G1 G2 × List (EquProof F G1 G2)) × List F)) (t : Fin N → F) :
    Res (JointView G1 G2 × Openings F G1 G2) :=
  (run (List.ofFn t)).map fun r => (jointView r.1, openPicks P w r.1.1)

open scoped BigOperators in
/-- Average of a distinguisher over what is seen after disclosure, with uniform tape. -/
noncomputable def disclosedGame [Fintype F] {N : Nat} (P : Picks) (w : Vars F G1 G2)
    (run : List F → Res ((VarComs F G1 G2 × List (EquProof F G1 G2)) × List F))
    (D : Res (JointView G1 G2 × Openings F G1 G2) → ℝ) : ℝ :=
  𝔼 t : Fin N → F, D (disclosedOn P w run t)

end GS
