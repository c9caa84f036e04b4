import Verif.Model.Tests

/-!
# When a test passes
-/

namespace GS.Tests

/-- A test with a generator passes: it returns. -/
def Passes {σ : Type} (t : Prog σ Unit) (s : σ) : Prop := ∃ s', t s = .ok ((), s')

end GS.Tests
