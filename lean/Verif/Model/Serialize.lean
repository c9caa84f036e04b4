import Verif.Model.Prove

/-!
# Serialization: the derives of `CanonicalSerialize` and `CanonicalDeserialize`

/repo derives the two traits for `Com1`, `Com2` (src/data_structures.rs:128, 132), `CRS` (src/generator.rs:35),
`Commit1`, `Commit2` (src/prover/commit.rs:18, 24), `EquProof` (src/prover/prove.rs:55) and the equation types
(src/statement.rs:117, 138, 159, 179), and implements them by hand for `EquType` (src/statement.rs:51-97).
Readers and writers are byte strings here (`&[u8]`, `Vec<u8>`; writing to a `Vec<u8>` cannot fail); see `Verif/Model/Io.lean`
for others.

The derive macro and the codecs for `u8`, `u64` and `Vec` belong to ark-serialize 0.5, whose source is not in
/repo. They are modelled after its documented behaviour: fields in order of declaration, little-endian integers, vectors
as a `u64` length followed by the elements, the elements of a vector deserialized without validation and then
validated in one `batch_check`. Not modelled: memory allocation (`Vec::with_capacity` with a length read from the
input). The codecs of field and group elements are parameters.
-/

namespace GS

/-- `ark_serialize::SerializationError` (the payload of `IoError` is dropped). Reached through the
derives at src/data_structures.rs:128-135, src/generator.rs:35, src/prover/commit.rs:18-29,
src/prover/prove.rs:55 and src/statement.rs:117-179. -/
inductive SerErr where
  | notEnoughSpace
  | invalidData
  | unexpectedFlags
  | ioError
  deriving DecidableEq, Repr

/-- `ark_serialize::Compress`. Reached through the derives at src/data_structures.rs:128-135,
src/generator.rs:35, src/prover/commit.rs:18-29, src/prover/prove.rs:55 and
src/statement.rs:117-179. -/
inductive Compress where
  | Yes
  | No
  deriving DecidableEq, Repr

/-- `ark_serialize::Validate`. Reached through the derives at src/data_structures.rs:128-135,
src/generator.rs:35, src/prover/commit.rs:18-29, src/prover/prove.rs:55 and
src/statement.rs:117-179. -/
inductive Validate where
  | Yes
  | No
  deriving DecidableEq, Repr

/-- Reached through the derives at src/data_structures.rs:128-135, src/generator.rs:35,
src/prover/commit.rs:18-29, src/prover/prove.rs:55 and src/statement.rs:117-179. -/
abbrev Bytes := List UInt8

/-- The methods of `CanonicalSerialize`, `CanonicalDeserialize` and `Valid` for one type.
`de` returns the value and the bytes it left in the reader. Reached through the derives at
src/data_structures.rs:128-135, src/generator.rs:35, src/prover/commit.rs:18-29,
src/prover/prove.rs:55 and src/statement.rs:117-179. -/
structure Codec (α : Type) where
  ser : Compress → α → Bytes
  size : Compress → α → Nat
  de : Compress → Validate → Bytes → Except SerErr (α × Bytes)
  check : α → Except SerErr Unit
  batchCheck : List α → Except SerErr Unit

/-- The default `batch_check` of the trait `Valid`: a loop over `check`. Reached through the
derives at src/data_structures.rs:128-135, src/generator.rs:35, src/prover/commit.rs:18-29,
src/prover/prove.rs:55 and src/statement.rs:117-179. -/
def loopCheck {α : Type} (check : α → Except SerErr Unit) : List α → Except SerErr Unit
  | [] => .ok ()
  | a :: l => do
    check a
    loopCheck check l

/-- `n` as `k` little-endian bytes. Reached through the derives at src/data_structures.rs:128-135,
src/generator.rs:35, src/prover/commit.rs:18-29, src/prover/prove.rs:55 and
src/statement.rs:117-179. -/
def leBytes : Nat → Nat → Bytes
  | 0, _ => []
  | k + 1, n => UInt8.ofNat (n % 256) :: leBytes k (n / 256)

/-- The number with the given little-endian bytes. Reached through the derives at
src/data_structures.rs:128-135, src/generator.rs:35, src/prover/commit.rs:18-29,
src/prover/prove.rs:55 and src/statement.rs:117-179. -/
def leNat : Bytes → Nat
  | [] => 0
  | b :: l => b.toNat + 256 * leNat l

/-- `Read::read_exact` for `k` bytes. Reached through the derives at
src/data_structures.rs:128-135, src/generator.rs:35, src/prover/commit.rs:18-29,
src/prover/prove.rs:55 and src/statement.rs:117-179. -/
def readExact (k : Nat) (bs : Bytes) : Except SerErr (Bytes × Bytes) :=
  if bs.length < k then .error .ioError else .ok (bs.take k, bs.drop k)

/-- The codec of `u64`: eight little-endian bytes. Reached through the derives at
src/data_structures.rs:128-135, src/generator.rs:35, src/prover/commit.rs:18-29,
src/prover/prove.rs:55 and src/statement.rs:117-179. -/
def u64Codec : Codec Nat where
  ser _ n := leBytes 8 n
  size _ _ := 8
  de _ _ bs := do
    let (b, rest) ← readExact 8 bs
    pure (leNat b, rest)
  check _ := .ok ()
  batchCheck := loopCheck fun _ => .ok ()

/-- The codec of `u8`. Reached through the derives at src/data_structures.rs:128-135,
src/generator.rs:35, src/prover/commit.rs:18-29, src/prover/prove.rs:55 and
src/statement.rs:117-179. -/
def u8Codec : Codec UInt8 where
  ser _ b := [b]
  size _ _ := 1
  de _ _ bs := do
    let (b, rest) ← readExact 1 bs
    pure (b.headD 0, rest)
  check _ := .ok ()
  batchCheck := loopCheck fun _ => .ok ()

/-- The loop reading the elements of a vector, without validation. Reached through the derives at
src/data_structures.rs:128-135, src/generator.rs:35, src/prover/commit.rs:18-29,
src/prover/prove.rs:55 and src/statement.rs:117-179. -/
def deLoop {α : Type} (c : Codec α) (m : Compress) : Nat → Bytes → Except SerErr (List α × Bytes)
  | 0, bs => .ok ([], bs)
  | n + 1, bs => do
    let (a, bs) ← c.de m .No bs
    let (l, bs) ← deLoop c m n bs
    pure (a :: l, bs)

/-- The codec of `Vec<T>`. Reached through the derives at src/data_structures.rs:128-135,
src/generator.rs:35, src/prover/commit.rs:18-29, src/prover/prove.rs:55 and
src/statement.rs:117-179. -/
def vecCodec {α : Type} (c : Codec α) : Codec (List α) where
  ser m l := u64Codec.ser m l.length ++ (l.map (c.ser m)).flatten
  size m l := 8 + (l.map (c.size m)).sum
  de m v bs := do
    let (len, bs) ← u64Codec.de m v bs
    let (l, bs) ← deLoop c m len bs
    match v with
    | .Yes => do
      c.batchCheck l
      pure (l, bs)
    | .No => pure (l, bs)
  check l := c.batchCheck l
  batchCheck ls := c.batchCheck ls.flatten

/-- Two fields in order, as in derived implementations. Reached through the derives at
src/data_structures.rs:128-135, src/generator.rs:35, src/prover/commit.rs:18-29,
src/prover/prove.rs:55 and src/statement.rs:117-179. -/
def prodCodec {α β : Type} (c : Codec α) (d : Codec β) : Codec (α × β) where
  ser m p := c.ser m p.1 ++ d.ser m p.2
  size m p := c.size m p.1 + d.size m p.2
  de m v bs := do
    let (a, bs) ← c.de m v bs
    let (b, bs) ← d.de m v bs
    pure ((a, b), bs)
  check p := do
    c.check p.1
    d.check p.2
  batchCheck l := do
    c.batchCheck (l.map (·.1))
    d.batchCheck (l.map (·.2))

/-- The derived implementation for a structure: `fields` lists the fields in order of declaration, `mk` is the
constructor. Reached through the derives at src/data_structures.rs:128-135, src/generator.rs:35,
src/prover/commit.rs:18-29, src/prover/prove.rs:55 and src/statement.rs:117-179. -/
def structCodec {α β : Type} (mk : α → β) (fields : β → α) (c : Codec α) : Codec β where
  ser m b := c.ser m (fields b)
  size m b := c.size m (fields b)
  de m v bs := do
    let (a, bs) ← c.de m v bs
    pure (mk a, bs)
  check b := c.check (fields b)
  batchCheck l := c.batchCheck (l.map fields)

/-- `EquType`, src/statement.rs:51-97. -/
def EquType.codec : Codec EquType where
  ser _ t :=
    let b : UInt8 := match t with
      | .PairingProduct => 0
      | .MultiScalarG1 => 1
      | .MultiScalarG2 => 2
      | .Quadratic => 3
    u8Codec.ser .Yes b
  size _ _ := 1
  de _ _ bs := do
    let (b, rest) ← u8Codec.de .Yes .Yes bs
    if b = 0 then pure (.PairingProduct, rest)
    else if b = 1 then pure (.MultiScalarG1, rest)
    else if b = 2 then pure (.MultiScalarG2, rest)
    else if b = 3 then pure (.Quadratic, rest)
    else .error .invalidData
  check _ := .ok ()
  batchCheck := loopCheck fun _ => .ok ()

variable {F G G1 G2 GT : Type}

/-- `Com1`, `Com2`, src/data_structures.rs:128-133. -/
def Com.codec (c : Codec G) : Codec (Com G) :=
  structCodec (fun (a, b) => ⟨a, b⟩) (fun x => (x.c0, x.c1)) (prodCodec c c)

/-- `Commit1`, `Commit2`, src/prover/commit.rs:18-28. -/
def Commit.codec (cF : Codec F) (c : Codec G) : Codec (Commit F G) :=
  structCodec (fun (coms, rand) => ⟨coms, rand⟩) (fun x => (x.coms, x.rand))
    (prodCodec (vecCodec (Com.codec c)) (vecCodec (vecCodec cF)))

/-- `CRS`, src/generator.rs:35-42. -/
def CRS.codec (c1 : Codec G1) (c2 : Codec G2) (cT : Codec GT) : Codec (CRS G1 G2 GT) :=
  structCodec (fun (u, v, g1, g2, gt) => ⟨u, v, g1, g2, gt⟩) (fun x => (x.u, x.v, x.g1_gen, x.g2_gen, x.gt_gen))
    (prodCodec (vecCodec (Com.codec c1)) (prodCodec (vecCodec (Com.codec c2)) (prodCodec c1 (prodCodec c2 cT))))

/-- `EquProof`, src/prover/prove.rs:55-61. -/
def EquProof.codec (cF : Codec F) (c1 : Codec G1) (c2 : Codec G2) : Codec (EquProof F G1 G2) :=
  structCodec (fun (pi, theta, ty, rand) => ⟨pi, theta, ty, rand⟩) (fun x => (x.pi, x.theta, x.equ_type, x.rand))
    (prodCodec (vecCodec (Com.codec c2)) (prodCodec (vecCodec (Com.codec c1))
      (prodCodec EquType.codec (vecCodec (vecCodec cF)))))

/-- `PPE`, src/statement.rs:117-123. -/
def PPE.codec (cF : Codec F) (c1 : Codec G1) (c2 : Codec G2) (cT : Codec GT) : Codec (PPE F G1 G2 GT) :=
  structCodec (fun (a, b, g, t) => ⟨a, b, g, t⟩) (fun x => (x.a_consts, x.b_consts, x.gamma, x.target))
    (prodCodec (vecCodec c1) (prodCodec (vecCodec c2) (prodCodec (vecCodec (vecCodec cF)) cT)))

/-- `MSMEG1`, src/statement.rs:138-144. -/
def MSMEG1.codec (cF : Codec F) (c1 : Codec G1) : Codec (MSMEG1 F G1) :=
  structCodec (fun (a, b, g, t) => ⟨a, b, g, t⟩) (fun x => (x.a_consts, x.b_consts, x.gamma, x.target))
    (prodCodec (vecCodec c1) (prodCodec (vecCodec cF) (prodCodec (vecCodec (vecCodec cF)) c1)))

/-- `MSMEG2`, src/statement.rs:159-165. -/
def MSMEG2.codec (cF : Codec F) (c2 : Codec G2) : Codec (MSMEG2 F G2) :=
  structCodec (fun (a, b, g, t) => ⟨a, b, g, t⟩) (fun x => (x.a_consts, x.b_consts, x.gamma, x.target))
    (prodCodec (vecCodec cF) (prodCodec (vecCodec c2) (prodCodec (vecCodec (vecCodec cF)) c2)))

/-- `QuadEqu`, src/statement.rs:179-185. -/
def QuadEqu.codec (cF : Codec F) : Codec (QuadEqu F) :=
  structCodec (fun (a, b, g, t) => ⟨a, b, g, t⟩) (fun x => (x.a_consts, x.b_consts, x.gamma, x.target))
    (prodCodec (vecCodec cF) (prodCodec (vecCodec cF) (prodCodec (vecCodec (vecCodec cF)) cF)))

end GS
