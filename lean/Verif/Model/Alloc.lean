import Verif.Model.Serialize

/-!
# Deserialization and memory

`Verif/Model/Serialize.lean` again, this time with the memory that is reserved for vectors. Reading a vector begins with
`Vec::with_capacity(len)`, where `len` comes from the input. If the size in bytes exceeds `isize::MAX`, this panics ("capacity
overflow"); if the allocator has not got as much, the process is aborted. Both are `refused` here: `lim` is the largest size
that is granted.

As for the rest of ark-serialize 0.5, the source is not in /repo. It is modelled after its published implementation: one
`with_capacity` for each vector, nothing else. Not modelled: the vectors of references inside derived `batch_check`s, which are made only after
the elements have been read; platforms whose `usize` is smaller than 64 bits, where larger lengths are the error `NotEnoughSpace`.
-/

namespace GS

/-- Why reading ends without a value: an error is returned, or memory is refused. Reached through
the derives at src/data_structures.rs:128-135, src/generator.rs:35, src/prover/commit.rs:18-29,
src/prover/prove.rs:55 and src/statement.rs:117-179. -/
inductive Stop where
  | err (e : SerErr)
  | refused (bytes : Nat)
  deriving DecidableEq, Repr

/-- The sizes in bytes that are asked of the allocator, in order, and how reading ends. Reached
through the derives at src/data_structures.rs:128-135, src/generator.rs:35,
src/prover/commit.rs:18-29, src/prover/prove.rs:55 and src/statement.rs:117-179. -/
structure Reading (α : Type) where
  requests : List Nat
  result : Except Stop α
  deriving DecidableEq, Repr

namespace Reading
variable {α β : Type}

/-- Reached through the derives at src/data_structures.rs:128-135, src/generator.rs:35,
src/prover/commit.rs:18-29, src/prover/prove.rs:55 and src/statement.rs:117-179. -/
def ret (a : α) : Reading α := ⟨[], .ok a⟩

/-- The operator `?`. Reached through the derives at src/data_structures.rs:128-135,
src/generator.rs:35, src/prover/commit.rs:18-29, src/prover/prove.rs:55 and
src/statement.rs:117-179. -/
def andThen (x : Reading α) (f : α → Reading β) : Reading β :=
  match x.result with
  | .error s => ⟨x.requests, .error s⟩
  | .ok a => ⟨x.requests ++ (f a).requests, (f a).result⟩

/-- Reached through the derives at src/data_structures.rs:128-135, src/generator.rs:35,
src/prover/commit.rs:18-29, src/prover/prove.rs:55 and src/statement.rs:117-179. -/
instance : Monad Reading where
  pure := ret
  bind := andThen

/-- A call that reserves no memory. Reached through the derives at src/data_structures.rs:128-135,
src/generator.rs:35, src/prover/commit.rs:18-29, src/prover/prove.rs:55 and
src/statement.rs:117-179. -/
def lift (x : Except SerErr α) : Reading α :=
  ⟨[], match x with
    | .error e => .error (.err e)
    | .ok a => .ok a⟩

/-- `Vec::with_capacity` for `n` bytes. Reached through the derives at
src/data_structures.rs:128-135, src/generator.rs:35, src/prover/commit.rs:18-29,
src/prover/prove.rs:55 and src/statement.rs:117-179. -/
def reserve (lim n : Nat) : Reading Unit := ⟨[n], if n ≤ lim then .ok () else .error (.refused n)⟩

end Reading

open Reading

/-- `CanonicalDeserialize` for one type, with `size_of`. `codec` is the model without memory.
Reached through the derives at src/data_structures.rs:128-135, src/generator.rs:35,
src/prover/commit.rs:18-29, src/prover/prove.rs:55 and src/statement.rs:117-179. -/
structure MemCodec (α : Type) where
  sizeOf : Nat
  codec : Codec α
  de : Compress → Validate → Bytes → Reading (α × Bytes)

variable {α β : Type}

/-- Field and group elements, integers and tags are read without reserving memory. Reached through
the derives at src/data_structures.rs:128-135, src/generator.rs:35, src/prover/commit.rs:18-29,
src/prover/prove.rs:55 and src/statement.rs:117-179. -/
def elemMem (sizeOf : Nat) (c : Codec α) : MemCodec α := ⟨sizeOf, c, fun m v bs => lift (c.de m v bs)⟩

/-- The loop reading the elements of a vector. Reached through the derives at
src/data_structures.rs:128-135, src/generator.rs:35, src/prover/commit.rs:18-29,
src/prover/prove.rs:55 and src/statement.rs:117-179. -/
def deLoopMem (c : MemCodec α) (m : Compress) : Nat → Bytes → Reading (List α × Bytes)
  | 0, bs => ret ([], bs)
  | n + 1, bs => do
    let (a, bs) ← c.de m .No bs
    let (l, bs) ← deLoopMem c m n bs
    ret (a :: l, bs)

/-- `Vec<T>`. It takes 24 bytes itself: pointer, capacity and length. Reached through the derives
at src/data_structures.rs:128-135, src/generator.rs:35, src/prover/commit.rs:18-29,
src/prover/prove.rs:55 and src/statement.rs:117-179. -/
def vecMem (lim : Nat) (c : MemCodec α) : MemCodec (List α) where
  sizeOf := 24
  codec := vecCodec c.codec
  de m v bs := do
    let (len, bs) ← lift (u64Codec.de m v bs)
    reserve lim (len * c.sizeOf)
    let (l, bs) ← deLoopMem c m len bs
    match v with
    | .Yes => do
      lift (c.codec.batchCheck l)
      ret (l, bs)
    | .No => ret (l, bs)

/-- Two fields in order. Reached through the derives at src/data_structures.rs:128-135,
src/generator.rs:35, src/prover/commit.rs:18-29, src/prover/prove.rs:55 and
src/statement.rs:117-179. -/
def prodMem (c : MemCodec α) (d : MemCodec β) : MemCodec (α × β) where
  sizeOf := c.sizeOf + d.sizeOf
  codec := prodCodec c.codec d.codec
  de m v bs := do
    let (a, bs) ← c.de m v bs
    let (b, bs) ← d.de m v bs
    ret ((a, b), bs)

/-- Derived implementations. Reached through the derives at src/data_structures.rs:128-135,
src/generator.rs:35, src/prover/commit.rs:18-29, src/prover/prove.rs:55 and
src/statement.rs:117-179. -/
def structMem (mk : α → β) (fields : β → α) (c : MemCodec α) : MemCodec β where
  sizeOf := c.sizeOf
  codec := structCodec mk fields c.codec
  de m v bs := do
    let (a, bs) ← c.de m v bs
    ret (mk a, bs)

variable {F G G1 G2 GT : Type}

/-- `Com1`, `Com2`, src/data_structures.rs:128-133; `s` is the size of a point. -/
def Com.mem (s : Nat) (c : Codec G) : MemCodec (Com G) :=
  structMem (fun (a, b) => ⟨a, b⟩) (fun x => (x.c0, x.c1)) (prodMem (elemMem s c) (elemMem s c))

/-- `Matrix<F>`, src/data_structures.rs:48; `s` is the size of a scalar. -/
def matMem (lim s : Nat) (c : Codec F) : MemCodec (List (List F)) := vecMem lim (vecMem lim (elemMem s c))

/-- `Commit1`, `Commit2`, src/prover/commit.rs:18-28. -/
def Commit.mem (lim sF s : Nat) (cF : Codec F) (c : Codec G) : MemCodec (Commit F G) :=
  structMem (fun (coms, rand) => ⟨coms, rand⟩) (fun x => (x.coms, x.rand)) (prodMem (vecMem lim (Com.mem s c)) (matMem lim sF cF))

/-- `CRS`, src/generator.rs:35-42. -/
def CRS.mem (lim s1 s2 sT : Nat) (c1 : Codec G1) (c2 : Codec G2) (cT : Codec GT) : MemCodec (CRS G1 G2 GT) :=
  structMem (fun (u, v, g1, g2, gt) => ⟨u, v, g1, g2, gt⟩) (fun x => (x.u, x.v, x.g1_gen, x.g2_gen, x.gt_gen))
    (prodMem (vecMem lim (Com.mem s1 c1)) (prodMem (vecMem lim (Com.mem s2 c2))
      (prodMem (elemMem s1 c1) (prodMem (elemMem s2 c2) (elemMem sT cT)))))

/-- `EquProof`, src/prover/prove.rs:55-61. -/
def EquProof.mem (lim sF s1 s2 : Nat) (cF : Codec F) (c1 : Codec G1) (c2 : Codec G2) : MemCodec (EquProof F G1 G2) :=
  structMem (fun (pi, theta, ty, rand) => ⟨pi, theta, ty, rand⟩) (fun x => (x.pi, x.theta, x.equ_type, x.rand))
    (prodMem (vecMem lim (Com.mem s2 c2)) (prodMem (vecMem lim (Com.mem s1 c1))
      (prodMem (elemMem 1 EquType.codec) (matMem lim sF cF))))

/-- `PPE`, src/statement.rs:117-123. -/
def PPE.mem (lim sF s1 s2 sT : Nat) (cF : Codec F) (c1 : Codec G1) (c2 : Codec G2) (cT : Codec GT) : MemCodec (PPE F G1 G2 GT) :=
  structMem (fun (a, b, g, t) => ⟨a, b, g, t⟩) (fun x => (x.a_consts, x.b_consts, x.gamma, x.target))
    (prodMem (vecMem lim (elemMem s1 c1)) (prodMem (vecMem lim (elemMem s2 c2)) (prodMem (matMem lim sF cF) (elemMem sT cT))))

/-- `MSMEG1`, src/statement.rs:138-144. -/
def MSMEG1.mem (lim sF s1 : Nat) (cF : Codec F) (c1 : Codec G1) : MemCodec (MSMEG1 F G1) :=
  structMem (fun (a, b, g, t) => ⟨a, b, g, t⟩) (fun x => (x.a_consts, x.b_consts, x.gamma, x.target))
    (prodMem (vecMem lim (elemMem s1 c1)) (prodMem (vecMem lim (elemMem sF cF)) (prodMem (matMem lim sF cF) (elemMem s1 c1))))

/-- `MSMEG2`, src/statement.rs:159-165. -/
def MSMEG2.mem (lim sF s2 : Nat) (cF : Codec F) (c2 : Codec G2) : MemCodec (MSMEG2 F G2) :=
  structMem (fun (a, b, g, t) => ⟨a, b, g, t⟩) (fun x => (x.a_consts, x.b_consts, x.gamma, x.target))
    (prodMem (vecMem lim (elemMem sF cF)) (prodMem (vecMem lim (elemMem s2 c2)) (prodMem (matMem lim sF cF) (elemMem s2 c2))))

/-- `QuadEqu`, src/statement.rs:179-185. -/
def QuadEqu.mem (lim sF : Nat) (cF : Codec F) : MemCodec (QuadEqu F) :=
  structMem (fun (a, b, g, t) => ⟨a, b, g, t⟩) (fun x => (x.a_consts, x.b_consts, x.gamma, x.target))
    (prodMem (vecMem lim (elemMem sF cF)) (prodMem (vecMem lim (elemMem sF cF)) (prodMem (matMem lim sF cF) (elemMem sF cF))))

end GS
