import Verif.Spec.Serialize

/-!
# The byte strings that are read as a given value

Real codecs of points have none of the properties `Codec.Lawful.round` and `Codec.Canonical` in full: a point that is not on the
curve is not read back from its compressed form, and the identity is read from many strings (`Verif/Model/Element.lean`). Here the
encodings of a composite value are described by those of its elements, with no such assumption.
-/

namespace GS
variable {α F G G1 G2 GT : Type}

/-- `bs` is an encoding of `x`: it is read as `x`, whatever follows it. -/
def Codec.Reads (c : Codec α) (m : Compress) (v : Validate) (x : α) (bs : Bytes) : Prop :=
  ∀ rest, c.de m v (bs ++ rest) = .ok (x, rest)

/-- `Codec.Lawful` without the laws about writing. -/
structure Codec.Orderly (c : Codec α) : Prop where
  /-- reading depends only on the bytes consumed -/
  stream : ∀ m v bs x rest, c.de m v bs = .ok (x, rest) → ∃ used, bs = used ++ rest ∧ c.Reads m v x used
  /-- reading with validation is reading and checking -/
  validate : ∀ m bs x rest, c.de m .Yes bs = .ok (x, rest) ↔ c.de m .No bs = .ok (x, rest) ∧ c.Valid x
  /-- the batch check passes when all checks do -/
  batch : ∀ l, c.batchCheck l = .ok () ↔ ∀ x ∈ l, c.Valid x

/-- The value is read back from its serialization. -/
def Codec.Returns (c : Codec α) (m : Compress) (x : α) : Prop := c.Reads m .No x (c.ser m x)

/-- The value is read from nothing but its serialization. -/
def Codec.Unique (c : Codec α) (m : Compress) (x : α) : Prop := ∀ bs, c.Reads m .No x bs → bs = c.ser m x

/-- Some value is read back, in both modes. -/
def Codec.ReturnsSome (c : Codec α) : Prop := ∃ x, ∀ m, c.Returns m x

/-- Strings for the elements, one after the other. -/
def EachIn (R : α → Bytes → Prop) : List α → Bytes → Prop
  | [], bs => bs = []
  | a :: l, bs => ∃ b b', bs = b ++ b' ∧ R a b ∧ EachIn R l b'

/-- The length in eight bytes, then strings for the elements. -/
def VecIn (R : α → Bytes → Prop) (l : List α) (bs : Bytes) : Prop :=
  Fits64 l ∧ ∃ b, bs = leBytes 8 l.length ++ b ∧ EachIn R l b

def Com.In (R : G → Bytes → Prop) (x : Com G) (bs : Bytes) : Prop := ∃ b0 b1, bs = b0 ++ b1 ∧ R x.c0 b0 ∧ R x.c1 b1

def Commit.In (RF : F → Bytes → Prop) (R : G → Bytes → Prop) (x : Commit F G) (bs : Bytes) : Prop :=
  ∃ b0 b1, bs = b0 ++ b1 ∧ VecIn (Com.In R) x.coms b0 ∧ VecIn (VecIn RF) x.rand b1

def CRS.In (R1 : G1 → Bytes → Prop) (R2 : G2 → Bytes → Prop) (RT : GT → Bytes → Prop) (x : CRS G1 G2 GT) (bs : Bytes) : Prop :=
  ∃ b0 b1 b2 b3 b4, bs = b0 ++ (b1 ++ (b2 ++ (b3 ++ b4))) ∧ VecIn (Com.In R1) x.u b0 ∧ VecIn (Com.In R2) x.v b1 ∧
    R1 x.g1_gen b2 ∧ R2 x.g2_gen b3 ∧ RT x.gt_gen b4

def EquProof.In (RF : F → Bytes → Prop) (R1 : G1 → Bytes → Prop) (R2 : G2 → Bytes → Prop) (x : EquProof F G1 G2)
    (bs : Bytes) : Prop :=
  ∃ b0 b1 b3, bs = b0 ++ (b1 ++ (EquType.codec.ser .Yes x.equ_type ++ b3)) ∧ VecIn (Com.In R2) x.pi b0 ∧ VecIn (Com.In R1) x.theta b1 ∧
    VecIn (VecIn RF) x.rand b3

def PPE.In (RF : F → Bytes → Prop) (R1 : G1 → Bytes → Prop) (R2 : G2 → Bytes → Prop) (RT : GT → Bytes → Prop)
    (x : PPE F G1 G2 GT) (bs : Bytes) : Prop :=
  ∃ b0 b1 b2 b3, bs = b0 ++ (b1 ++ (b2 ++ b3)) ∧ VecIn R1 x.a_consts b0 ∧ VecIn R2 x.b_consts b1 ∧ VecIn (VecIn RF) x.gamma b2 ∧
    RT x.target b3

def MSMEG1.In (RF : F → Bytes → Prop) (R1 : G1 → Bytes → Prop) (x : MSMEG1 F G1) (bs : Bytes) : Prop :=
  ∃ b0 b1 b2 b3, bs = b0 ++ (b1 ++ (b2 ++ b3)) ∧ VecIn R1 x.a_consts b0 ∧ VecIn RF x.b_consts b1 ∧ VecIn (VecIn RF) x.gamma b2 ∧
    R1 x.target b3

def MSMEG2.In (RF : F → Bytes → Prop) (R2 : G2 → Bytes → Prop) (x : MSMEG2 F G2) (bs : Bytes) : Prop :=
  ∃ b0 b1 b2 b3, bs = b0 ++ (b1 ++ (b2 ++ b3)) ∧ VecIn RF x.a_consts b0 ∧ VecIn R2 x.b_consts b1 ∧ VecIn (VecIn RF) x.gamma b2 ∧
    R2 x.target b3

def QuadEqu.In (RF : F → Bytes → Prop) (x : QuadEqu F) (bs : Bytes) : Prop :=
  ∃ b0 b1 b2 b3, bs = b0 ++ (b1 ++ (b2 ++ b3)) ∧ VecIn RF x.a_consts b0 ∧ VecIn RF x.b_consts b1 ∧ VecIn (VecIn RF) x.gamma b2 ∧
    RF x.target b3

end GS
