import Verif.Model.Calls

/-! # What a call can end with -/

namespace GS

/-- Executed alone, the call can end with `r`, and with nothing else. -/
def Call.Yields {α : Type} (c : Call α) (r : Res α) : Prop :=
  ∀ x, Relation.ReflTransGen CallStep (.code c) (.done x) ↔ x = r

/-- Before the first step of the calls. -/
def sysStart {n : Nat} {α : Fin n → Type} (calls : ∀ i, Call (α i)) : ∀ i, CallState (α i) := fun i => .code (calls i)

end GS
