import Verif.Spec.Opening

/-!
# Binding and equivocal keys

Properties of a commitment key (one side of a common reference string), whoever made it: how the commitments it
defines (`Verif/Spec/Opening.lean`) can be opened.
-/

namespace GS
variable {G : Type} [AddCommGroup G]

/-- No commitment to a group element can be opened to two values. -/
def BindingGroup (F : Type) [Field F] [Module F G] (u : List (Com G)) : Prop :=
  ∀ c x x', CanOpenGroup F u c x → CanOpenGroup F u c x' → x = x'

/-- Every commitment to a group element can be opened to every group element. -/
def EquivocalGroup (F : Type) [Field F] [Module F G] (u : List (Com G)) : Prop :=
  ∀ c x x', CanOpenGroup F u c x → CanOpenGroup F u c x'

/-- No commitment to a scalar can be opened to two values. -/
def BindingScalar (F : Type) [Field F] [Module F G] (u : List (Com G)) (g : G) : Prop :=
  ∀ (c : Com G) (x x' : F), CanOpenScalar u g c x → CanOpenScalar u g c x' → x = x'

/-- Every commitment to a scalar can be opened to every scalar. -/
def EquivocalScalar (F : Type) [Field F] [Module F G] (u : List (Com G)) (g : G) : Prop :=
  ∀ (c : Com G) (x x' : F), CanOpenScalar u g c x → CanOpenScalar u g c x'

/-- `xs` has one value for each of the commitments `cs`, and none of them can be opened to another value. -/
def OnlyGroup (F : Type) [Field F] [Module F G] (u cs : List (Com G)) (xs : List G) : Prop :=
  List.Forall₂ (fun c x => ∀ x', CanOpenGroup F u c x' → x' = x) cs xs

/-- `xs` has one scalar for each of the commitments `cs`, and none of them can be opened to another scalar. -/
def OnlyScalar {F : Type} [Field F] [Module F G] (u : List (Com G)) (g : G) (cs : List (Com G)) (xs : List F) : Prop :=
  List.Forall₂ (fun c x => ∀ x', CanOpenScalar u g c x' → x' = x) cs xs

end GS
