import Verif.Model.Raw
import Verif.Model.Serialize

/-!
# Sending a proof and verifying what arrives

`CProof` itself cannot be serialized (src/prover/prove.rs:64-69 derives neither trait), but its fields are public and each of them can.
The sender serializes the tuple `(cp.xcoms, cp.ycoms, cp.equ_proofs)`, the receiver deserializes such a tuple, puts it into a
`CProof` and calls `verify`. ark-serialize treats a tuple as a structure with these fields.
-/

namespace GS
variable {F G1 G2 GT : Type}

/-- The fields of a `CProof` (src/prover/prove.rs:64-69) as a tuple. -/
def CProof.codec (cF : Codec F) (c1 : Codec G1) (c2 : Codec G2) : Codec (CProof F G1 G2) :=
  structCodec (fun (x, y, pfs) => ⟨x, y, pfs⟩) (fun cp => (cp.xcoms, cp.ycoms, cp.equ_proofs))
    (prodCodec (Commit.codec cF c1) (prodCodec (Commit.codec cF c2) (vecCodec (EquProof.codec cF c1 c2))))

/-- What the receiver does with the bytes `bs`: it reads a message, with or without validation,
and passes it to `verify`. The check at the end is src/verifier.rs:20. -/
def receive (cF : Codec F) (c1 : Codec G1) (c2 : Codec G2) (m : Compress) (v : Validate) (bs : Bytes)
    (verify : CProof F G1 G2 → Res Bool) : Except SerErr (Res Bool) := do
  let (cp, _) ← (CProof.codec cF c1 c2).de m v bs
  pure (verify cp)

end GS
