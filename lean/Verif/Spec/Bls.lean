import Verif.Model.Bls
import Verif.Spec.Element

/-! # What is asked of coordinates, and of a codec that validates in full -/

namespace GS
variable {B α : Type}

/-- One string for each coordinate, all of the same length, with a first byte below 32; zeros for zero. -/
structure BeField.Lawful [Zero B] (c : BeField B) : Prop where
  length : ∀ x, (c.enc x).length = c.size
  clear : ∀ x, ∃ a l, c.enc x = a :: l ∧ a.toNat < 32
  dec : ∀ b x, b.length = c.size → (c.dec b = some x ↔ b = c.enc x)
  zero : c.enc 0 = List.replicate c.size 0

/-- The bytes with a number added to the first one. -/
def tagged (t : UInt8) : Bytes → Bytes
  | [] => []
  | b :: l => (b + t) :: l

/-- No pair on the curve has a second coordinate that is its own negative. -/
def SWCurve.NoOrderTwo [Field B] (E : SWCurve B) : Prop := ∀ x y : B, y * y = x * x * x + E.a * x + E.b → y ≠ -y

/-- The same codec, except that reading with validation is reading and checking. -/
def Codec.strict (c : Codec α) : Codec α :=
  { c with
    de := fun m v bs => match v with
      | .No => c.de m .No bs
      | .Yes => do
        let (x, rest) ← c.de m .No bs
        c.check x
        pure (x, rest) }

end GS
