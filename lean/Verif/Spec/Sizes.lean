import Verif.Model.Serialize

/-! # Element codecs whose encodings all have the same length -/

namespace GS
variable {α : Type}

/-- Every value takes `k` bytes in mode `m`. -/
def Codec.Takes (c : Codec α) (m : Compress) (k : Nat) : Prop := ∀ x, (c.ser m x).length = k

end GS
