import Verif.Model.Serialize

/-! # What is asked of element codecs, and sizes and validity of values -/

namespace GS
variable {α F G G1 G2 GT : Type}

/-- A value passes `Valid::check`. -/
def Codec.Valid (c : Codec α) (x : α) : Prop := c.check x = .ok ()

/-- The laws assumed of the codecs of field and group elements. -/
structure Codec.Lawful (c : Codec α) : Prop where
  /-- what was written is read back, and nothing more is read -/
  round : ∀ m v x rest, (v = .Yes → c.Valid x) → c.de m v (c.ser m x ++ rest) = .ok (x, rest)
  /-- the reported size is right -/
  size : ∀ m x, (c.ser m x).length = c.size m x
  /-- reading depends only on the bytes consumed -/
  stream : ∀ m v bs x rest, c.de m v bs = .ok (x, rest) →
    ∃ used, bs = used ++ rest ∧ ∀ rest', c.de m v (used ++ rest') = .ok (x, rest')
  /-- reading with validation is reading and checking -/
  validate : ∀ m bs x rest, c.de m .Yes bs = .ok (x, rest) ↔ c.de m .No bs = .ok (x, rest) ∧ c.Valid x
  /-- the batch check passes when all checks do -/
  batch : ∀ l, c.batchCheck l = .ok () ↔ ∀ x ∈ l, c.Valid x

/-- Every byte string that is read is the serialization of the value read. -/
def Codec.Canonical (c : Codec α) : Prop :=
  ∀ m v bs x rest, c.de m v bs = .ok (x, rest) → bs = c.ser m x ++ rest

/-- The length fits the `u64` written in front of a vector (true of every Rust `Vec`). -/
def Fits64 (l : List α) : Prop := l.length < 2 ^ 64

/-- The lengths of all vectors in the value fit in a `u64`. -/
def FitsMat (m : Matrix α) : Prop := Fits64 m ∧ ∀ r ∈ m, Fits64 r
def Commit.Fits (x : Commit F G) : Prop := Fits64 x.coms ∧ FitsMat x.rand
def CRS.Fits (x : CRS G1 G2 GT) : Prop := Fits64 x.u ∧ Fits64 x.v
def EquProof.Fits (x : EquProof F G1 G2) : Prop := Fits64 x.pi ∧ Fits64 x.theta ∧ FitsMat x.rand
def PPE.Fits (x : PPE F G1 G2 GT) : Prop := Fits64 x.a_consts ∧ Fits64 x.b_consts ∧ FitsMat x.gamma
def MSMEG1.Fits (x : MSMEG1 F G1) : Prop := Fits64 x.a_consts ∧ Fits64 x.b_consts ∧ FitsMat x.gamma
def MSMEG2.Fits (x : MSMEG2 F G2) : Prop := Fits64 x.a_consts ∧ Fits64 x.b_consts ∧ FitsMat x.gamma
def QuadEqu.Fits (x : QuadEqu F) : Prop := Fits64 x.a_consts ∧ Fits64 x.b_consts ∧ FitsMat x.gamma

/-- All field and group elements in the value have the given properties. -/
def Com.Elems (p : G → Prop) (x : Com G) : Prop := p x.c0 ∧ p x.c1
def Commit.Elems (pF : F → Prop) (p : G → Prop) (x : Commit F G) : Prop :=
  (∀ c ∈ x.coms, c.Elems p) ∧ ∀ r ∈ x.rand, ∀ a ∈ r, pF a
def CRS.Elems (p1 : G1 → Prop) (p2 : G2 → Prop) (pT : GT → Prop) (x : CRS G1 G2 GT) : Prop :=
  (∀ c ∈ x.u, c.Elems p1) ∧ (∀ c ∈ x.v, c.Elems p2) ∧ p1 x.g1_gen ∧ p2 x.g2_gen ∧ pT x.gt_gen
def EquProof.Elems (pF : F → Prop) (p1 : G1 → Prop) (p2 : G2 → Prop) (x : EquProof F G1 G2) : Prop :=
  (∀ c ∈ x.pi, c.Elems p2) ∧ (∀ c ∈ x.theta, c.Elems p1) ∧ ∀ r ∈ x.rand, ∀ a ∈ r, pF a
def PPE.Elems (pF : F → Prop) (p1 : G1 → Prop) (p2 : G2 → Prop) (pT : GT → Prop) (x : PPE F G1 G2 GT) : Prop :=
  (∀ a ∈ x.a_consts, p1 a) ∧ (∀ b ∈ x.b_consts, p2 b) ∧ (∀ r ∈ x.gamma, ∀ a ∈ r, pF a) ∧ pT x.target
def MSMEG1.Elems (pF : F → Prop) (p1 : G1 → Prop) (x : MSMEG1 F G1) : Prop :=
  (∀ a ∈ x.a_consts, p1 a) ∧ (∀ b ∈ x.b_consts, pF b) ∧ (∀ r ∈ x.gamma, ∀ a ∈ r, pF a) ∧ p1 x.target
def MSMEG2.Elems (pF : F → Prop) (p2 : G2 → Prop) (x : MSMEG2 F G2) : Prop :=
  (∀ a ∈ x.a_consts, pF a) ∧ (∀ b ∈ x.b_consts, p2 b) ∧ (∀ r ∈ x.gamma, ∀ a ∈ r, pF a) ∧ p2 x.target
def QuadEqu.Elems (pF : F → Prop) (x : QuadEqu F) : Prop :=
  (∀ a ∈ x.a_consts, pF a) ∧ (∀ b ∈ x.b_consts, pF b) ∧ (∀ r ∈ x.gamma, ∀ a ∈ r, pF a) ∧ pF x.target

end GS
