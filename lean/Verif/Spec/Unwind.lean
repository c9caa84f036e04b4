import Verif.Model.Unwind
import Verif.Spec.Tape

/-!
# What is observable after a panic

`Unw` (`Verif/Model/Unwind.lean`) is a call that leaves a value behind its `&mut` argument even if it panics.
-/

namespace GS
variable {F ρ α : Type}

/-- What a caller that does not catch panics observes. -/
def Unw.forget (x : Unw ρ α) (s : ρ) : Res (α × ρ) :=
  match x.run s with
  | (.ok a, s') => .ok (a, s')
  | (.error p, _) => .error p

/-- Every row of `M` has at most `c` entries and the first one, which exists, has exactly `c`. -/
def FirstRowWidest (c : Nat) (M : Matrix F) : Prop :=
  (∃ r, M.head? = some r ∧ r.length = c) ∧ ∀ r ∈ M, r.length ≤ c

/-- The randomness recorded in the commitments fits the numbers `nx`, `ny` of variables and `gamma`: there is one row
per variable, `cx` and `cy` columns, and `gamma` has a row per variable in `X` and (in its first row) a column per
variable in `Y`. -/
structure ArgsFit (cx cy nx ny : Nat) (gamma xrand yrand : Matrix F) : Prop where
  xrows : xrand.length = nx
  xcols : FirstRowWidest cx xrand
  yrows : yrand.length = ny
  ycols : FirstRowWidest cy yrand
  grows : gamma.length = nx
  gcols : ∃ g, gamma.head? = some g ∧ g.length = ny

end GS
