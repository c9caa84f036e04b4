import Verif.Spec.Target
import Verif.Spec.Raw

/-! # Formats of two types, one of which stands for the other -/

namespace GS

/-- `d` writes `f a` as `c` writes `a`, reads `f a` where `c` reads `a`, and makes the same errors. -/
structure Codec.Maps {α β : Type} (f : α → β) (c : Codec α) (d : Codec β) : Prop where
  ser : ∀ m a, d.ser m (f a) = c.ser m a
  size : ∀ m a, d.size m (f a) = c.size m a
  de : ∀ m v bs, d.de m v bs = (c.de m v bs).map (Prod.map f id)
  check : ∀ a, d.check (f a) = c.check a
  batch : ∀ l, d.batchCheck (l.map f) = c.batchCheck l

end GS
