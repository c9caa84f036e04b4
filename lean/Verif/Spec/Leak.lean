import Verif.Model.Serialize
import Verif.Lemmas.Com

/-!
# Opening a serialized commitment without a secret

`Commit1` and `Commit2` carry the randomness of the commitment, and their serialization includes it.
-/

namespace GS
variable {F G : Type} [Field F] [AddCommGroup G] [Module F G]

/-- Subtract the recorded randomness from a commitment to a group element. -/
def unblind (u0 u1 : Com G) (c : Com G) : List F → G
  | [r0, r1] => c.c1 - r0 • u0.c1 - r1 • u1.c1
  | _ => 0

/-- An eavesdropper who knows the key `u` reads a serialized commitment to group elements. -/
def eavesdrop (cF : Codec F) (cG : Codec G) (m : Compress) (u : List (Com G)) (bs : Bytes) : List G :=
  match (Commit.codec cF cG).de m .No bs, u with
  | .ok (c, _), [u0, u1] => List.zipWith (unblind u0 u1) c.coms c.rand
  | _, _ => []

/-- Whether the commitment with the recorded randomness `r` is one to the scalar `x`; `w` is the image of 1. -/
def isComTo [DecidableEq G] (u0 w : Com G) (c : Com G) (r : List F) (x : F) : Bool :=
  decide (c - r.headD 0 • u0 = x • w)

/-- An eavesdropper who knows the key `u` and the generator `g` tests a guess for committed scalars. -/
def guess [DecidableEq G] (cF : Codec F) (cG : Codec G) (m : Compress) (u : List (Com G)) (g : G) (bs : Bytes) (xs : List F) :
    Bool :=
  match (Commit.codec cF cG).de m .No bs, u with
  | .ok (c, _), [u0, u1] =>
    c.coms.length == xs.length &&
      (List.zipWith (fun (p : Com G × List F) x => isComTo u0 (u1 + ⟨0, g⟩) p.1 p.2 x) (List.zip c.coms c.rand) xs).all id
  | _, _ => false

end GS
