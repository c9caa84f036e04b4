import Verif.Model.Serialize

/-!
# Serialization to writers and from readers

`serialize_with_mode` and `deserialize_with_mode` are generic in `W: Write` and `R: Read`. Here the writer may accept part of
a buffer, be interrupted, fail or be cut off by a crash, and the reader may deliver its bytes in pieces, be interrupted or
fail. `Verif/Model/Serialize.lean` has the special case of byte strings.

`write_all` and `read_exact` are the default methods of `std::io::Write` and `std::io::Read`, modelled after their
documentation: they loop until the whole buffer is done, go on after `ErrorKind::Interrupted` and stop at any other error; a
write of 0 bytes is the error `WriteZero` and a read of 0 bytes the error `UnexpectedEof`.
-/

namespace GS

/-- How a call of `serialize_with_mode` ends: `Ok(())`, `Err(_)`, or not at all because the
process was killed. Reached through the derives at src/data_structures.rs:128-135,
src/generator.rs:35, src/prover/commit.rs:18-29, src/prover/prove.rs:55 and
src/statement.rs:117-179. -/
inductive WriteEnd where
  | ok
  | err
  | crash
  deriving DecidableEq, Repr

/-- `write_all(buf)`: the bytes that the writer accepted and how it ended. One constructor for
each answer of `write`. Reached through the derives at src/data_structures.rs:128-135,
src/generator.rs:35, src/prover/commit.rs:18-29, src/prover/prove.rs:55 and
src/statement.rs:117-179. -/
inductive WriteAll : Bytes → Bytes → WriteEnd → Prop where
  | done : WriteAll [] [] .ok
  | part {buf acc : Bytes} {r : WriteEnd} (n : Nat) (h0 : 0 < n) (hn : n ≤ buf.length) (h : WriteAll (buf.drop n) acc r) :
      WriteAll buf (buf.take n ++ acc) r
  | interrupted {buf acc : Bytes} {r : WriteEnd} (hb : buf ≠ []) (h : WriteAll buf acc r) : WriteAll buf acc r
  | zero {buf : Bytes} (hb : buf ≠ []) : WriteAll buf [] .err
  | fail {buf : Bytes} (hb : buf ≠ []) : WriteAll buf [] .err
  | crash {buf : Bytes} : WriteAll buf [] .crash

/-- A sequence of calls `write_all(buf)?`: the bytes that the writer accepted and how it ended.
Reached through the derives at src/data_structures.rs:128-135, src/generator.rs:35,
src/prover/commit.rs:18-29, src/prover/prove.rs:55 and src/statement.rs:117-179. -/
inductive WriteRun : List Bytes → Bytes → WriteEnd → Prop where
  | nil : WriteRun [] [] .ok
  | next {buf : Bytes} {bufs : List Bytes} {acc acc' : Bytes} {r : WriteEnd} (h : WriteAll buf acc .ok)
      (h' : WriteRun bufs acc' r) : WriteRun (buf :: bufs) (acc ++ acc') r
  | stop {buf : Bytes} {bufs : List Bytes} {acc : Bytes} {r : WriteEnd} (h : WriteAll buf acc r) (hr : r ≠ .ok) :
      WriteRun (buf :: bufs) acc r
  | crash {bufs : List Bytes} : WriteRun bufs [] .crash

/-- `read_exact` for `k` bytes from a reader that has the given bytes left before its end: the result (`none` is an error) and
the bytes left. One constructor for each answer of `read`. Errors of the reader itself occur only
if `faults` holds. Reached through the derives at src/data_structures.rs:128-135,
src/generator.rs:35, src/prover/commit.rs:18-29, src/prover/prove.rs:55 and
src/statement.rs:117-179. -/
inductive ReadExact (faults : Prop) : Nat → Bytes → Option Bytes → Bytes → Prop where
  | done {bs : Bytes} : ReadExact faults 0 bs (some []) bs
  | part {k : Nat} {bs rest : Bytes} {r : Option Bytes} (n : Nat) (h0 : 0 < n) (hk : n ≤ k) (hn : n ≤ bs.length)
      (h : ReadExact faults (k - n) (bs.drop n) r rest) : ReadExact faults k bs (r.map (bs.take n ++ ·)) rest
  | interrupted {k : Nat} {bs rest : Bytes} {r : Option Bytes} (hk : 0 < k) (h : ReadExact faults k bs r rest) :
      ReadExact faults k bs r rest
  | eof {k : Nat} (hk : 0 < k) : ReadExact faults k [] none []
  | fail {k : Nat} {bs : Bytes} (hf : faults) (hk : 0 < k) : ReadExact faults k bs none bs

/-- A function that reads from a reader with `read_exact` only. Reached through the derives at
src/data_structures.rs:128-135, src/generator.rs:35, src/prover/commit.rs:18-29,
src/prover/prove.rs:55 and src/statement.rs:117-179. -/
inductive ReadProg (α : Type) where
  | ret (a : α)
  | fail (err : SerErr)
  | read (k : Nat) (f : Bytes → ReadProg α)

namespace ReadProg

/-- `let x = p?; f(x)`. Reached through the derives at src/data_structures.rs:128-135,
src/generator.rs:35, src/prover/commit.rs:18-29, src/prover/prove.rs:55 and
src/statement.rs:117-179. -/
def bind {α β : Type} : ReadProg α → (α → ReadProg β) → ReadProg β
  | ret a, g => g a
  | fail err, _ => fail err
  | read k f, g => read k fun b => (f b).bind g

/-- Reached through the derives at src/data_structures.rs:128-135, src/generator.rs:35,
src/prover/commit.rs:18-29, src/prover/prove.rs:55 and src/statement.rs:117-179. -/
instance : Monad ReadProg where
  pure := ret
  bind := bind

/-- A check that reads nothing. Reached through the derives at src/data_structures.rs:128-135,
src/generator.rs:35, src/prover/commit.rs:18-29, src/prover/prove.rs:55 and
src/statement.rs:117-179. -/
def ofExcept {α : Type} : Except SerErr α → ReadProg α
  | .ok a => ret a
  | .error err => fail err

/-- The function applied to a `&[u8]`. Reached through the derives at
src/data_structures.rs:128-135, src/generator.rs:35, src/prover/commit.rs:18-29,
src/prover/prove.rs:55 and src/statement.rs:117-179. -/
def slice {α : Type} : ReadProg α → Bytes → Except SerErr (α × Bytes)
  | ret a, bs => .ok (a, bs)
  | fail err, _ => .error err
  | read k f, bs => do
    let (b, rest) ← readExact k bs
    (f b).slice rest

/-- The function applied to a reader that has the bytes left: result and bytes left. Reached
through the derives at src/data_structures.rs:128-135, src/generator.rs:35,
src/prover/commit.rs:18-29, src/prover/prove.rs:55 and src/statement.rs:117-179. -/
inductive Run (faults : Prop) {α : Type} : ReadProg α → Bytes → Except SerErr α → Bytes → Prop where
  | ret {a : α} {bs : Bytes} : Run faults (.ret a) bs (.ok a) bs
  | fail {err : SerErr} {bs : Bytes} : Run faults (.fail err) bs (.error err) bs
  | read {k : Nat} {f : Bytes → ReadProg α} {bs b bs' rest : Bytes} {r : Except SerErr α}
      (h : ReadExact faults k bs (some b) bs') (h' : Run faults (f b) bs' r rest) : Run faults (.read k f) bs r rest
  | readErr {k : Nat} {f : Bytes → ReadProg α} {bs rest : Bytes} (h : ReadExact faults k bs none rest) :
      Run faults (.read k f) bs (.error .ioError) rest

end ReadProg

/-- `serialize_with_mode` as the buffers it passes to `write_all`, `deserialize_with_mode` as a function of a reader, and the
other methods as in `Codec`. Reached through the derives at src/data_structures.rs:128-135,
src/generator.rs:35, src/prover/commit.rs:18-29, src/prover/prove.rs:55 and
src/statement.rs:117-179. -/
structure IoCodec (α : Type) where
  ser : Compress → α → List Bytes
  size : Compress → α → Nat
  de : Compress → Validate → ReadProg α
  check : α → Except SerErr Unit
  batchCheck : List α → Except SerErr Unit

/-- The special case of byte strings. Reached through the derives at
src/data_structures.rs:128-135, src/generator.rs:35, src/prover/commit.rs:18-29,
src/prover/prove.rs:55 and src/statement.rs:117-179. -/
def IoCodec.toCodec {α : Type} (c : IoCodec α) : Codec α where
  ser m x := (c.ser m x).flatten
  size := c.size
  de m v bs := (c.de m v).slice bs
  check := c.check
  batchCheck := c.batchCheck

/-- The codec of `u64`: eight little-endian bytes. Reached through the derives at
src/data_structures.rs:128-135, src/generator.rs:35, src/prover/commit.rs:18-29,
src/prover/prove.rs:55 and src/statement.rs:117-179. -/
def u64Io : IoCodec Nat where
  ser _ n := [leBytes 8 n]
  size _ _ := 8
  de _ _ := .read 8 fun b => .ret (leNat b)
  check _ := .ok ()
  batchCheck := loopCheck fun _ => .ok ()

/-- The codec of `u8`. Reached through the derives at src/data_structures.rs:128-135,
src/generator.rs:35, src/prover/commit.rs:18-29, src/prover/prove.rs:55 and
src/statement.rs:117-179. -/
def u8Io : IoCodec UInt8 where
  ser _ b := [[b]]
  size _ _ := 1
  de _ _ := .read 1 fun b => .ret (b.headD 0)
  check _ := .ok ()
  batchCheck := loopCheck fun _ => .ok ()

/-- The loop reading the elements of a vector, without validation. Reached through the derives at
src/data_structures.rs:128-135, src/generator.rs:35, src/prover/commit.rs:18-29,
src/prover/prove.rs:55 and src/statement.rs:117-179. -/
def ioLoop {α : Type} (c : IoCodec α) (m : Compress) : Nat → ReadProg (List α)
  | 0 => pure []
  | n + 1 => do
    let a ← c.de m .No
    let l ← ioLoop c m n
    pure (a :: l)

/-- The codec of `Vec<T>`. Reached through the derives at src/data_structures.rs:128-135,
src/generator.rs:35, src/prover/commit.rs:18-29, src/prover/prove.rs:55 and
src/statement.rs:117-179. -/
def vecIo {α : Type} (c : IoCodec α) : IoCodec (List α) where
  ser m l := u64Io.ser m l.length ++ (l.map (c.ser m)).flatten
  size m l := 8 + (l.map (c.size m)).sum
  de m v := do
    let len ← u64Io.de m v
    let l ← ioLoop c m len
    match v with
    | .Yes => do
      ReadProg.ofExcept (c.batchCheck l)
      pure l
    | .No => pure l
  check l := c.batchCheck l
  batchCheck ls := c.batchCheck ls.flatten

/-- Two fields in order, as in derived implementations. Reached through the derives at
src/data_structures.rs:128-135, src/generator.rs:35, src/prover/commit.rs:18-29,
src/prover/prove.rs:55 and src/statement.rs:117-179. -/
def prodIo {α β : Type} (c : IoCodec α) (d : IoCodec β) : IoCodec (α × β) where
  ser m p := c.ser m p.1 ++ d.ser m p.2
  size m p := c.size m p.1 + d.size m p.2
  de m v := do
    let a ← c.de m v
    let b ← d.de m v
    pure (a, b)
  check p := do
    c.check p.1
    d.check p.2
  batchCheck l := do
    c.batchCheck (l.map (·.1))
    d.batchCheck (l.map (·.2))

/-- The derived implementation for a structure. Reached through the derives at
src/data_structures.rs:128-135, src/generator.rs:35, src/prover/commit.rs:18-29,
src/prover/prove.rs:55 and src/statement.rs:117-179. -/
def structIo {α β : Type} (mk : α → β) (fields : β → α) (c : IoCodec α) : IoCodec β where
  ser m b := c.ser m (fields b)
  size m b := c.size m (fields b)
  de m v := do
    let a ← c.de m v
    pure (mk a)
  check b := c.check (fields b)
  batchCheck l := c.batchCheck (l.map fields)

/-- `EquType`, src/statement.rs:51-97. -/
def EquType.io : IoCodec EquType where
  ser _ t :=
    let b : UInt8 := match t with
      | .PairingProduct => 0
      | .MultiScalarG1 => 1
      | .MultiScalarG2 => 2
      | .Quadratic => 3
    u8Io.ser .Yes b
  size _ _ := 1
  de _ _ := do
    let b ← u8Io.de .Yes .Yes
    if b = 0 then pure .PairingProduct
    else if b = 1 then pure .MultiScalarG1
    else if b = 2 then pure .MultiScalarG2
    else if b = 3 then pure .Quadratic
    else .fail .invalidData
  check _ := .ok ()
  batchCheck := loopCheck fun _ => .ok ()

variable {F G G1 G2 GT : Type}

/-- `Com1`, `Com2`, src/data_structures.rs:128-133. -/
def Com.io (c : IoCodec G) : IoCodec (Com G) :=
  structIo (fun (a, b) => ⟨a, b⟩) (fun x => (x.c0, x.c1)) (prodIo c c)

/-- `Commit1`, `Commit2`, src/prover/commit.rs:18-28. -/
def Commit.io (cF : IoCodec F) (c : IoCodec G) : IoCodec (Commit F G) :=
  structIo (fun (coms, rand) => ⟨coms, rand⟩) (fun x => (x.coms, x.rand))
    (prodIo (vecIo (Com.io c)) (vecIo (vecIo cF)))

/-- `CRS`, src/generator.rs:35-42. -/
def CRS.io (c1 : IoCodec G1) (c2 : IoCodec G2) (cT : IoCodec GT) : IoCodec (CRS G1 G2 GT) :=
  structIo (fun (u, v, g1, g2, gt) => ⟨u, v, g1, g2, gt⟩) (fun x => (x.u, x.v, x.g1_gen, x.g2_gen, x.gt_gen))
    (prodIo (vecIo (Com.io c1)) (prodIo (vecIo (Com.io c2)) (prodIo c1 (prodIo c2 cT))))

/-- `EquProof`, src/prover/prove.rs:55-61. -/
def EquProof.io (cF : IoCodec F) (c1 : IoCodec G1) (c2 : IoCodec G2) : IoCodec (EquProof F G1 G2) :=
  structIo (fun (pi, theta, ty, rand) => ⟨pi, theta, ty, rand⟩) (fun x => (x.pi, x.theta, x.equ_type, x.rand))
    (prodIo (vecIo (Com.io c2)) (prodIo (vecIo (Com.io c1)) (prodIo EquType.io (vecIo (vecIo cF)))))

/-- `PPE`, src/statement.rs:117-123. -/
def PPE.io (cF : IoCodec F) (c1 : IoCodec G1) (c2 : IoCodec G2) (cT : IoCodec GT) : IoCodec (PPE F G1 G2 GT) :=
  structIo (fun (a, b, g, t) => ⟨a, b, g, t⟩) (fun x => (x.a_consts, x.b_consts, x.gamma, x.target))
    (prodIo (vecIo c1) (prodIo (vecIo c2) (prodIo (vecIo (vecIo cF)) cT)))

/-- `MSMEG1`, src/statement.rs:138-144. -/
def MSMEG1.io (cF : IoCodec F) (c1 : IoCodec G1) : IoCodec (MSMEG1 F G1) :=
  structIo (fun (a, b, g, t) => ⟨a, b, g, t⟩) (fun x => (x.a_consts, x.b_consts, x.gamma, x.target))
    (prodIo (vecIo c1) (prodIo (vecIo cF) (prodIo (vecIo (vecIo cF)) c1)))

/-- `MSMEG2`, src/statement.rs:159-165. -/
def MSMEG2.io (cF : IoCodec F) (c2 : IoCodec G2) : IoCodec (MSMEG2 F G2) :=
  structIo (fun (a, b, g, t) => ⟨a, b, g, t⟩) (fun x => (x.a_consts, x.b_consts, x.gamma, x.target))
    (prodIo (vecIo cF) (prodIo (vecIo c2) (prodIo (vecIo (vecIo cF)) c2)))

/-- `QuadEqu`, src/statement.rs:179-185. -/
def QuadEqu.io (cF : IoCodec F) : IoCodec (QuadEqu F) :=
  structIo (fun (a, b, g, t) => ⟨a, b, g, t⟩) (fun x => (x.a_consts, x.b_consts, x.gamma, x.target))
    (prodIo (vecIo cF) (prodIo (vecIo cF) (prodIo (vecIo (vecIo cF)) cF)))

end GS
