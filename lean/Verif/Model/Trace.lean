import Verif.Model.Verify

/-!
# The operations a call executes

A second version of the functions of the crate that keeps a record of the arithmetic: every addition, scalar multiplication,
comparison, pairing and random draw is written to a trace in the order of execution. The traced functions have the same text as
the ones in the other modules of this directory; `C90` proves that they compute the same. What arkworks does inside one of
these operations is not modelled; the recorded operations are the calls the crate makes.
-/

namespace GS

/-- Where an operation takes place. The operations of src/data_structures.rs:183-232, 336-341,
497-500 and src/prover/commit.rs:64. -/
inductive Grp where
  | G1 | G2 | GT | F
  deriving DecidableEq, Repr

/-- The calls the crate makes to arkworks. `mul .G1` multiplies a point by a scalar, `mul .F` two field elements; `pairing n` is
one `multi_pairing` of `n` pairs (`E::pairing` is `pairing 1`). The operations of
src/data_structures.rs:183-232, 336-341, 497-500 and src/prover/commit.rs:64. -/
inductive Op where
  | add (g : Grp) | sub (g : Grp) | neg (g : Grp) | mul (g : Grp) | eq (g : Grp) | rand (g : Grp) | pairing (n : Nat)
  deriving DecidableEq, Repr

/-- An execution: the operations executed, in order, and how it ended. The operations of
src/data_structures.rs:183-232, 336-341, 497-500 and src/prover/commit.rs:64. -/
structure Tr (α : Type) where
  ops : List Op
  res : Res α

namespace Tr
variable {α β : Type}

/-- `let x = a; f(x)`; a panic in `a` unwinds. The operations of src/data_structures.rs:183-232,
336-341, 497-500 and src/prover/commit.rs:64. -/
def bind (a : Tr α) (f : α → Tr β) : Tr β :=
  match a.res with
  | .ok x => ⟨a.ops ++ (f x).ops, (f x).res⟩
  | .error p => ⟨a.ops, .error p⟩

/-- The operations of src/data_structures.rs:183-232, 336-341, 497-500 and
src/prover/commit.rs:64. -/
instance : Monad Tr where
  pure a := ⟨[], .ok a⟩
  bind := bind

/-- Code without arithmetic. The operations of src/data_structures.rs:183-232, 336-341, 497-500
and src/prover/commit.rs:64. -/
instance : MonadLift Res Tr where
  monadLift r := ⟨[], r⟩

/-- One operation. The operations of src/data_structures.rs:183-232, 336-341, 497-500 and
src/prover/commit.rs:64. -/
def op (o : Op) (a : α) : Tr α := ⟨[o], .ok a⟩

/-- A loop that pushes `f x` for each `x`. The operations of src/data_structures.rs:183-232,
336-341, 497-500 and src/prover/commit.rs:64. -/
def collect (f : α → Tr β) : List α → Tr (List β)
  | [] => pure []
  | a :: l => do
    let b ← f a
    let bs ← collect f l
    pure (b :: bs)

/-- A loop `for x in xs { acc = f(acc, x) }`. The operations of src/data_structures.rs:183-232,
336-341, 497-500 and src/prover/commit.rs:64. -/
def fold (f : β → α → Tr β) : β → List α → Tr β
  | b, [] => pure b
  | b, a :: l => do
    let b' ← f b a
    fold f b' l

/-- The tasks of a parallel product, one after the other in the order of the schedule.
src/data_structures.rs:659-679, 710-728, 838-856 and 885-901. -/
def runTasks (f : Nat → Nat → Tr β) (order : List (Nat × Nat)) (s : Slots β) : Tr (Slots β) :=
  fold (fun s p => do
    let b ← f p.1 p.2
    pure (s.write p b)) s order

/-- Nested parallel map-collect, src/data_structures.rs:658-677. -/
def parGrid (sch : Scheduler) (m n : Nat) (f : Nat → Nat → Tr β) : Tr (Matrix β) := do
  let s ← runTasks f (sch.order m n) (fun _ => none)
  GS.collect (fun i => GS.collect (fun j => s.read (i, j)) (List.range n)) (List.range m)

/-- The sequential map-collect, src/data_structures.rs:679-692. -/
def seqGrid (m n : Nat) (f : Nat → Nat → Tr β) : Tr (Matrix β) :=
  collect (fun i => collect (fun j => f i j) (List.range n)) (List.range m)

end Tr

/-! ## Commitment groups -/

namespace Com
variable {G : Type} [AddCommGroup G]

/-- `add`, src/data_structures.rs:181-191. -/
def addTr (g : Grp) (a b : Com G) : Tr (Com G) := do
  let c0 ← Tr.op (.add g) (a.c0 + b.c0)
  let c1 ← Tr.op (.add g) (a.c1 + b.c1)
  pure ⟨c0, c1⟩

/-- `neg`, src/data_structures.rs:202-212. -/
def negTr (g : Grp) (a : Com G) : Tr (Com G) := do
  let c0 ← Tr.op (.neg g) (-a.c0)
  let c1 ← Tr.op (.neg g) (-a.c1)
  pure ⟨c0, c1⟩

/-- `scalar_mul`, src/data_structures.rs:336-342 and 381-387. -/
def scalarMulTr {F : Type} [Field F] [Module F G] (g : Grp) (a : Com G) (rhs : F) : Tr (Com G) := do
  let c0 ← Tr.op (.mul g) (rhs • a.c0)
  let c1 ← Tr.op (.mul g) (rhs • a.c1)
  pure ⟨c0, c1⟩

end Com

section LinearMaps
variable {F G1 G2 GT : Type} [Field F] [AddCommGroup G1] [Module F G1] [AddCommGroup G2] [Module F G2]

/-- `Com1::scalar_linear_map`, src/data_structures.rs:322-326. -/
def Com1.scalarLinearMapTr (x : F) (key : CRS G1 G2 GT) : Tr (Com G1) := do
  let u1 ← idx key.u 1
  Com.scalarMulTr .G1 (← Com.addTr .G1 u1 (Com1.linearMap key.g1_gen)) x

/-- `Com1::batch_scalar_linear_map`, src/data_structures.rs:328-334. -/
def Com1.batchScalarLinearMapTr (xs : List F) (key : CRS G1 G2 GT) : Tr (List (Com G1)) :=
  Tr.collect (fun x => Com1.scalarLinearMapTr x key) xs

/-- `Com2::scalar_linear_map`, src/data_structures.rs:367-371. -/
def Com2.scalarLinearMapTr (y : F) (key : CRS G1 G2 GT) : Tr (Com G2) := do
  let v1 ← idx key.v 1
  Com.scalarMulTr .G2 (← Com.addTr .G2 v1 (Com2.linearMap key.g2_gen)) y

/-- `Com2::batch_scalar_linear_map`, src/data_structures.rs:373-379. -/
def Com2.batchScalarLinearMapTr (ys : List F) (key : CRS G1 G2 GT) : Tr (List (Com G2)) :=
  Tr.collect (fun y => Com2.scalarLinearMapTr y key) ys

end LinearMaps

namespace ComT
section Group
variable {GT : Type} [AddCommGroup GT]

/-- `==`, src/data_structures.rs:391-396; `&&` stops at the first component that differs. -/
def eqTr [DecidableEq GT] (a b : ComT GT) : Tr Bool := do
  let b0 ← Tr.op (.eq .GT) (a.t0 == b.t0)
  if b0 then
    let b1 ← Tr.op (.eq .GT) (a.t1 == b.t1)
    if b1 then
      let b2 ← Tr.op (.eq .GT) (a.t2 == b.t2)
      if b2 then Tr.op (.eq .GT) (a.t3 == b.t3) else pure false
    else pure false
  else pure false

/-- `add`, src/data_structures.rs:399-411. -/
def addTr (a b : ComT GT) : Tr (ComT GT) := do
  let t0 ← Tr.op (.add .GT) (a.t0 + b.t0)
  let t1 ← Tr.op (.add .GT) (a.t1 + b.t1)
  let t2 ← Tr.op (.add .GT) (a.t2 + b.t2)
  let t3 ← Tr.op (.add .GT) (a.t3 + b.t3)
  pure ⟨t0, t1, t2, t3⟩

end Group

section Pairing
variable {F G1 G2 GT : Type} [Field F] [AddCommGroup G1] [Module F G1] [AddCommGroup G2] [Module F G2]
  [AddCommGroup GT] [Module F GT] (e : G1 →ₗ[F] G2 →ₗ[F] GT)

/-- `pairing`, src/data_structures.rs:483-491. -/
def pairingTr (x : Com G1) (y : Com G2) : Tr (ComT GT) := do
  let t0 ← Tr.op (.pairing 1) (e x.c0 y.c0)
  let t1 ← Tr.op (.pairing 1) (e x.c0 y.c1)
  let t2 ← Tr.op (.pairing 1) (e x.c1 y.c0)
  let t3 ← Tr.op (.pairing 1) (e x.c1 y.c1)
  pure ⟨t0, t1, t2, t3⟩

/-- `E::multi_pairing(xs, ys)` of arkworks on lists of equal length.
src/data_structures.rs:497-500. -/
def multiPairingTr (xs : List G1) (ys : List G2) : Tr GT := Tr.op (.pairing xs.length) (multiPairing e xs ys)

/-- `pairing_sum`, src/data_structures.rs:493-502. -/
def pairingSumTr (xs : List (Com G1)) (ys : List (Com G2)) : Tr (ComT GT) := do
  assertEq xs.length ys.length
  let t0 ← multiPairingTr e (xs.map fun x => x.c0) (ys.map fun y => y.c0)
  let t1 ← multiPairingTr e (xs.map fun x => x.c0) (ys.map fun y => y.c1)
  let t2 ← multiPairingTr e (xs.map fun x => x.c1) (ys.map fun y => y.c0)
  let t3 ← multiPairingTr e (xs.map fun x => x.c1) (ys.map fun y => y.c1)
  pure ⟨t0, t1, t2, t3⟩

/-- `linear_map_MSMEG1`, src/data_structures.rs:518-524. -/
def linearMapMSMEG1Tr (z : G1) (key : CRS G1 G2 GT) : Tr (ComT GT) := do
  let i2 ← Com2.scalarLinearMapTr (1 : F) key
  pairingTr e (Com1.linearMap z) i2

/-- `linear_map_MSMEG2`, src/data_structures.rs:526-532. -/
def linearMapMSMEG2Tr (z : G2) (key : CRS G1 G2 GT) : Tr (ComT GT) := do
  let i1 ← Com1.scalarLinearMapTr (1 : F) key
  pairingTr e i1 (Com2.linearMap z)

/-- `linear_map_quad`, src/data_structures.rs:534-540. -/
def linearMapQuadTr (z : F) (key : CRS G1 G2 GT) : Tr (ComT GT) := do
  let i1 ← Com1.scalarLinearMapTr (1 : F) key
  let i2 ← Com2.scalarLinearMapTr (1 : F) key
  pairingTr e i1 (← Com.scalarMulTr .G2 i2 z)

end Pairing
end ComT

/-! ## Matrices -/

namespace ComMat
variable {F G : Type} [Field F] [AddCommGroup G] [Module F G]

/-- `add`, src/data_structures.rs:590-603. -/
def addTr (g : Grp) (self other : Matrix (Com G)) : Tr (Matrix (Com G)) := do
  assertEq self.length other.length
  assertEq (← firstRowLen self) (← firstRowLen other)
  let m := self.length
  let n ← firstRowLen self
  Tr.collect (fun i => Tr.collect (fun j => do
    Com.addTr g (← idx2 self i j) (← idx2 other i j)) (List.range n)) (List.range m)

/-- `left_mul`, src/data_structures.rs:696-742. One entry is an iterator consumed by `sum` from
src/data_structures.rs:244-251: the next product is computed, then added. -/
def leftMulTr (g : Grp) (sch : Scheduler) (self : Matrix (Com G)) (lhs : Matrix F) (isParallel : Bool) :
    Tr (Matrix (Com G)) := do
  if isEmptyMat lhs then return []
  if isEmptyMat self then return []
  assertEq (← firstRowLen lhs) self.length
  let rowDim := lhs.length
  let colDim ← firstRowLen self
  if isParallel then
    Tr.parGrid sch rowDim colDim fun i j => do
      let row ← idx lhs i
      let dim := self.length
      Tr.fold (fun a k => do
        Com.addTr g a (← Com.scalarMulTr g (← idx2 self k j) (← idx row k))) 0 (List.range dim)
  else
    Tr.seqGrid rowDim colDim fun i j => do
      let row ← idx lhs i
      let dim := self.length
      Tr.fold (fun a k => do
        Com.addTr g a (← Com.scalarMulTr g (← idx2 self k j) (← idx row k))) 0 (List.range dim)

end ComMat

namespace FieldMat
variable {F : Type} [Field F]

/-- `add`, src/data_structures.rs:771-784. -/
def addTr (self other : Matrix F) : Tr (Matrix F) := do
  assertEq self.length other.length
  assertEq (← firstRowLen self) (← firstRowLen other)
  let m := self.length
  let n ← firstRowLen self
  Tr.collect (fun i => Tr.collect (fun j => do
    Tr.op (.add .F) ((← idx2 self i j) + (← idx2 other i j))) (List.range n)) (List.range m)

/-- `neg`, src/data_structures.rs:786-794. -/
def negTr (self : Matrix F) : Tr (Matrix F) :=
  Tr.collect (fun i => do
    let row ← idx self i
    Tr.collect (fun j => do Tr.op (.neg .F) (-(← idx row j))) (List.range row.length)) (List.range self.length)

/-- `right_mul`, src/data_structures.rs:824-869. -/
def rightMulTr (sch : Scheduler) (self rhs : Matrix F) (isParallel : Bool) : Tr (Matrix F) := do
  if isEmptyMat self then return []
  if isEmptyMat rhs then return []
  assertEq (← firstRowLen self) rhs.length
  let rowDim := self.length
  let colDim ← firstRowLen rhs
  if isParallel then
    Tr.parGrid sch rowDim colDim fun i j => do
      let row ← idx self i
      let dim := rhs.length
      Tr.fold (fun a k => do
        let t ← Tr.op (.mul .F) ((← idx row k) * (← idx2 rhs k j))
        Tr.op (.add .F) (a + t)) 0 (List.range dim)
  else
    Tr.seqGrid rowDim colDim fun i j => do
      let row ← idx self i
      let dim := rhs.length
      Tr.fold (fun a k => do
        let t ← Tr.op (.mul .F) ((← idx row k) * (← idx2 rhs k j))
        Tr.op (.add .F) (a + t)) 0 (List.range dim)

end FieldMat

/-! ## Random draws, commitments -/

variable {F G1 G2 GT : Type} [Field F] [AddCommGroup G1] [Module F G1] [AddCommGroup G2] [Module F G2]
variable {ρ : Type} [Rng ρ F G1 G2]

/-- `E::ScalarField::rand(rng)`. src/prover/commit.rs:64. -/
def randFTr (G1 G2 : Type) [AddCommGroup G1] [Module F G1] [AddCommGroup G2] [Module F G2] [Rng ρ F G1 G2] (rng : ρ) :
    Tr (F × ρ) := Tr.op (.rand .F) (Rng.randF (F := F) G1 G2 rng)

/-- The loop drawing an `n × 2` matrix, src/prover/commit.rs:86-88 and 186-188. -/
def drawRows2Tr (randF : ρ → Tr (F × ρ)) : Nat → ρ → Tr (Matrix F × ρ)
  | 0, s => pure ([], s)
  | n + 1, s => do
    let (a, s) ← randF s
    let (b, s) ← randF s
    let (l, s) ← drawRows2Tr randF n s
    pure ([a, b] :: l, s)

/-- The loop drawing an `n × 1` matrix, src/prover/commit.rs:136-138 and 236-238. -/
def drawRows1Tr (randF : ρ → Tr (F × ρ)) : Nat → ρ → Tr (Matrix F × ρ)
  | 0, s => pure ([], s)
  | n + 1, s => do
    let (a, s) ← randF s
    let (l, s) ← drawRows1Tr randF n s
    pure ([a] :: l, s)

/-- `commit_G1`, src/prover/commit.rs:58-75. -/
def commitG1Tr (xvar : G1) (key : CRS G1 G2 GT) (rng : ρ) : Tr (Commit F G1 × ρ) := do
  let (r1, rng) ← randFTr (F := F) G1 G2 rng
  let (r2, rng) ← randFTr (F := F) G1 G2 rng
  let c ← Com.addTr .G1
    (← Com.addTr .G1 (Com1.linearMap xvar)
      (← Com.scalarMulTr .G1 (← idx2 (vecToColVec key.u) 0 0) r1))
    (← Com.scalarMulTr .G1 (← idx2 (vecToColVec key.u) 1 0) r2)
  pure (⟨[c], [[r1, r2]]⟩, rng)

/-- `batch_commit_G1`, src/prover/commit.rs:77-100. -/
def batchCommitG1Tr (xvars : List G1) (key : CRS G1 G2 GT) (rng : ρ) : Tr (Commit F G1 × ρ) := do
  let m := xvars.length
  let (R, rng) ← drawRows2Tr (randFTr (F := F) G1 G2) m rng
  let lin_x := vecToColVec (Com1.batchLinearMap xvars)
  let ru ← ComMat.leftMulTr .G1 seqSched (vecToColVec key.u) R false
  let coms ← ComMat.addTr .G1 lin_x ru
  pure (⟨← colVecToVec coms, R⟩, rng)

/-- `commit_scalar_to_B1`, src/prover/commit.rs:102-122. -/
def commitScalarToB1Tr (scalar_xvar : F) (key : CRS G1 G2 GT) (rng : ρ) : Tr (Commit F G1 × ρ) := do
  let (r, rng) ← randFTr (F := F) G1 G2 rng
  let c ← Com.addTr .G1 (← Com1.scalarLinearMapTr scalar_xvar key)
    (← Com.scalarMulTr .G1 (← idx2 (vecToColVec key.u) 0 0) r)
  pure (⟨[c], [[r]]⟩, rng)

/-- `batch_commit_scalar_to_B1`, src/prover/commit.rs:124-156. -/
def batchCommitScalarToB1Tr (scalar_xvars : List F) (key : CRS G1 G2 GT) (rng : ρ) :
    Tr (Commit F G1 × ρ) := do
  let mprime := scalar_xvars.length
  let (r, rng) ← drawRows1Tr (randFTr (F := F) G1 G2) mprime rng
  let slin_x := vecToColVec (← Com1.batchScalarLinearMapTr scalar_xvars key)
  let ru := vecToColVec (← Tr.collect (fun sca => do
    Com.scalarMulTr .G1 (← idx2 (vecToColVec key.u) 0 0) sca) (← colVecToVec r))
  let coms ← ComMat.addTr .G1 slin_x ru
  pure (⟨← colVecToVec coms, r⟩, rng)

/-- `commit_G2`, src/prover/commit.rs:158-175. -/
def commitG2Tr (yvar : G2) (key : CRS G1 G2 GT) (rng : ρ) : Tr (Commit F G2 × ρ) := do
  let (s1, rng) ← randFTr (F := F) G1 G2 rng
  let (s2, rng) ← randFTr (F := F) G1 G2 rng
  let c ← Com.addTr .G2
    (← Com.addTr .G2 (Com2.linearMap yvar)
      (← Com.scalarMulTr .G2 (← idx2 (vecToColVec key.v) 0 0) s1))
    (← Com.scalarMulTr .G2 (← idx2 (vecToColVec key.v) 1 0) s2)
  pure (⟨[c], [[s1, s2]]⟩, rng)

/-- `batch_commit_G2`, src/prover/commit.rs:177-200. -/
def batchCommitG2Tr (yvars : List G2) (key : CRS G1 G2 GT) (rng : ρ) : Tr (Commit F G2 × ρ) := do
  let m := yvars.length
  let (R, rng) ← drawRows2Tr (randFTr (F := F) G1 G2) m rng
  let lin_y := vecToColVec (Com2.batchLinearMap yvars)
  let rv ← ComMat.leftMulTr .G2 seqSched (vecToColVec key.v) R false
  let coms ← ComMat.addTr .G2 lin_y rv
  pure (⟨← colVecToVec coms, R⟩, rng)

/-- `commit_scalar_to_B2`, src/prover/commit.rs:202-222. -/
def commitScalarToB2Tr (scalar_yvar : F) (key : CRS G1 G2 GT) (rng : ρ) : Tr (Commit F G2 × ρ) := do
  let (r, rng) ← randFTr (F := F) G1 G2 rng
  let c ← Com.addTr .G2 (← Com2.scalarLinearMapTr scalar_yvar key)
    (← Com.scalarMulTr .G2 (← idx2 (vecToColVec key.v) 0 0) r)
  pure (⟨[c], [[r]]⟩, rng)

/-- `batch_commit_scalar_to_B2`, src/prover/commit.rs:224-256. -/
def batchCommitScalarToB2Tr (scalar_yvars : List F) (key : CRS G1 G2 GT) (rng : ρ) :
    Tr (Commit F G2 × ρ) := do
  let mprime := scalar_yvars.length
  let (r, rng) ← drawRows1Tr (randFTr (F := F) G1 G2) mprime rng
  let slin_y := vecToColVec (← Com2.batchScalarLinearMapTr scalar_yvars key)
  let rv := vecToColVec (← Tr.collect (fun sca => do
    Com.scalarMulTr .G2 (← idx2 (vecToColVec key.v) 0 0) sca) (← colVecToVec r))
  let coms ← ComMat.addTr .G2 slin_y rv
  pure (⟨← colVecToVec coms, r⟩, rng)

/-- `prepare_real_binding_key`, src/generator.rs:45-60. -/
def prepareRealBindingKeyTr (_g1_gen : G1) (_g2_gen : G2) (q1 : G1) (t1 : F) (q2 : G2) (t2 : F) :
    Tr (G1 × G2) := do
  let w1 ← Tr.op (.mul .G1) (t1 • q1)
  let v1 ← Tr.op (.sub .G1) (w1 - 0)
  let w2 ← Tr.op (.mul .G2) (t2 • q2)
  let v2 ← Tr.op (.sub .G2) (w2 - 0)
  pure (v1, v2)

/-- `generate_crs`, src/generator.rs:80-119. -/
def generateCrsTr [AddCommGroup GT] [Module F GT] (e : G1 →ₗ[F] G2 →ₗ[F] GT) (rng : ρ) : Tr (CRS G1 G2 GT × ρ) := do
  let (p1, rng) ← Tr.op (.rand .G1) (Rng.randG1 F G2 rng)
  let (p2, rng) ← Tr.op (.rand .G2) (Rng.randG2 F G1 rng)
  let (a1, rng) ← randFTr (F := F) G1 G2 rng
  let (a2, rng) ← randFTr (F := F) G1 G2 rng
  let (t1, rng) ← randFTr (F := F) G1 G2 rng
  let (t2, rng) ← randFTr (F := F) G1 G2 rng
  let q1 ← Tr.op (.mul .G1) (a1 • p1)
  let q2 ← Tr.op (.mul .G2) (a2 • p2)
  let u1 ← Tr.op (.mul .G1) (t1 • p1)
  let u2 ← Tr.op (.mul .G2) (t2 • p2)
  let (v1, v2) ← prepareRealBindingKeyTr p1 p2 q1 t1 q2 t2
  let u11 : Com G1 := ⟨p1, q1⟩
  let u12 : Com G1 := ⟨u1, v1⟩
  let u21 : Com G2 := ⟨p2, q2⟩
  let u22 : Com G2 := ⟨u2, v2⟩
  let gt ← Tr.op (.pairing 1) (e p1 p2)
  pure ({ u := [u11, u12]
          v := [u21, u22]
          g1_gen := p1
          g2_gen := p2
          gt_gen := gt }, rng)

/-! ## The prover -/

/-- `PPE::prove`, src/prover/prove.rs:92-171. -/
def PPE.proveTr (sch : Nat → Scheduler) (self : PPE F G1 G2 GT) (xvars : List G1) (yvars : List G2)
    (xcoms : Commit F G1) (ycoms : Commit F G2) (crs : CRS G1 G2 GT) (rng : ρ) :
    Tr (EquProof F G1 G2 × ρ) := do
  assertEq xvars.length xcoms.rand.length
  assertEq self.gamma.length xcoms.rand.length
  assertEq (← idx xcoms.rand 0).length 2
  assertEq yvars.length ycoms.rand.length
  assertEq (← idx self.gamma 0).length ycoms.rand.length
  assertEq (← idx ycoms.rand 0).length 2
  let is_parallel := true
  let x_rand_trans ← FieldMat.transpose xcoms.rand
  let y_rand_trans ← FieldMat.transpose ycoms.rand
  let (t00, rng) ← randFTr (F := F) G1 G2 rng
  let (t01, rng) ← randFTr (F := F) G1 G2 rng
  let (t10, rng) ← randFTr (F := F) G1 G2 rng
  let (t11, rng) ← randFTr (F := F) G1 G2 rng
  let pf_rand : Matrix F := [[t00, t01], [t10, t11]]
  let x_rand_lin_b ← ComMat.leftMulTr .G2 (sch 0) (vecToColVec (Com2.batchLinearMap self.b_consts))
    x_rand_trans is_parallel
  let x_rand_stmt ← FieldMat.rightMulTr (sch 1) x_rand_trans self.gamma is_parallel
  let x_rand_stmt_lin_y ← ComMat.leftMulTr .G2 (sch 2) (vecToColVec (Com2.batchLinearMap yvars))
    x_rand_stmt is_parallel
  let pf_rand_stmt ← FieldMat.addTr
    (← FieldMat.rightMulTr (sch 4) (← FieldMat.rightMulTr (sch 3) x_rand_trans self.gamma is_parallel)
      ycoms.rand is_parallel)
    (← FieldMat.negTr (← FieldMat.transpose pf_rand))
  let pf_rand_stmt_com2 ← ComMat.leftMulTr .G2 (sch 5) (vecToColVec crs.v) pf_rand_stmt is_parallel
  let pi ← colVecToVec (← ComMat.addTr .G2 (← ComMat.addTr .G2 x_rand_lin_b x_rand_stmt_lin_y) pf_rand_stmt_com2)
  assertEq pi.length 2
  let y_rand_lin_a ← ComMat.leftMulTr .G1 (sch 6) (vecToColVec (Com1.batchLinearMap self.a_consts))
    y_rand_trans is_parallel
  let y_rand_stmt ← FieldMat.rightMulTr (sch 7) y_rand_trans (← FieldMat.transpose self.gamma) is_parallel
  let y_rand_stmt_lin_x ← ComMat.leftMulTr .G1 (sch 8) (vecToColVec (Com1.batchLinearMap xvars))
    y_rand_stmt is_parallel
  let pf_rand_com1 ← ComMat.leftMulTr .G1 (sch 9) (vecToColVec crs.u) pf_rand is_parallel
  let theta ← colVecToVec (← ComMat.addTr .G1 (← ComMat.addTr .G1 y_rand_lin_a y_rand_stmt_lin_x) pf_rand_com1)
  assertEq theta.length 2
  pure (⟨pi, theta, .PairingProduct, pf_rand⟩, rng)

/-- `PPE::commit_and_prove`, src/prover/prove.rs:72-90. -/
def PPE.commitAndProveTr (sch : Nat → Scheduler) (self : PPE F G1 G2 GT) (xvars : List G1)
    (yvars : List G2) (crs : CRS G1 G2 GT) (rng : ρ) : Tr (CProof F G1 G2 × ρ) := do
  let (xcoms, rng) ← batchCommitG1Tr (F := F) xvars crs rng
  let (ycoms, rng) ← batchCommitG2Tr (F := F) yvars crs rng
  let (pf, rng) ← self.proveTr sch xvars yvars xcoms ycoms crs rng
  pure (⟨xcoms, ycoms, [pf]⟩, rng)

/-- `MSMEG1::prove`, src/prover/prove.rs:195-274. -/
def MSMEG1.proveTr (sch : Nat → Scheduler) (self : MSMEG1 F G1) (xvars : List G1)
    (scalar_yvars : List F) (xcoms : Commit F G1) (scalar_ycoms : Commit F G2)
    (crs : CRS G1 G2 GT) (rng : ρ) : Tr (EquProof F G1 G2 × ρ) := do
  assertEq xvars.length xcoms.rand.length
  assertEq self.gamma.length xcoms.rand.length
  assertEq (← idx xcoms.rand 0).length 2
  assertEq scalar_yvars.length scalar_ycoms.rand.length
  assertEq (← idx self.gamma 0).length scalar_ycoms.rand.length
  assertEq (← idx scalar_ycoms.rand 0).length 1
  let is_parallel := true
  let x_rand_trans ← FieldMat.transpose xcoms.rand
  let y_rand_trans ← FieldMat.transpose scalar_ycoms.rand
  let (t00, rng) ← randFTr (F := F) G1 G2 rng
  let (t01, rng) ← randFTr (F := F) G1 G2 rng
  let pf_rand : Matrix F := [[t00, t01]]
  let x_rand_lin_b ← ComMat.leftMulTr .G2 (sch 0)
    (vecToColVec (← Com2.batchScalarLinearMapTr self.b_consts crs)) x_rand_trans is_parallel
  let x_rand_stmt ← FieldMat.rightMulTr (sch 1) x_rand_trans self.gamma is_parallel
  let x_rand_stmt_lin_y ← ComMat.leftMulTr .G2 (sch 2)
    (vecToColVec (← Com2.batchScalarLinearMapTr scalar_yvars crs)) x_rand_stmt is_parallel
  let pf_rand_stmt ← FieldMat.addTr
    (← FieldMat.rightMulTr (sch 4) (← FieldMat.rightMulTr (sch 3) x_rand_trans self.gamma is_parallel)
      scalar_ycoms.rand is_parallel)
    (← FieldMat.negTr (← FieldMat.transpose pf_rand))
  let v1 : Matrix (Com G2) := [[← idx crs.v 0]]
  let pf_rand_stmt_com2 ← ComMat.leftMulTr .G2 (sch 5) v1 pf_rand_stmt is_parallel
  let pi ← colVecToVec (← ComMat.addTr .G2 (← ComMat.addTr .G2 x_rand_lin_b x_rand_stmt_lin_y) pf_rand_stmt_com2)
  assertEq pi.length 2
  let y_rand_lin_a ← ComMat.leftMulTr .G1 (sch 6) (vecToColVec (Com1.batchLinearMap self.a_consts))
    y_rand_trans is_parallel
  let y_rand_stmt ← FieldMat.rightMulTr (sch 7) y_rand_trans (← FieldMat.transpose self.gamma) is_parallel
  let y_rand_stmt_lin_x ← ComMat.leftMulTr .G1 (sch 8) (vecToColVec (Com1.batchLinearMap xvars))
    y_rand_stmt is_parallel
  let pf_rand_com1 ← ComMat.leftMulTr .G1 (sch 9) (vecToColVec crs.u) pf_rand is_parallel
  let theta ← colVecToVec (← ComMat.addTr .G1 (← ComMat.addTr .G1 y_rand_lin_a y_rand_stmt_lin_x) pf_rand_com1)
  assertEq theta.length 1
  pure (⟨pi, theta, .MultiScalarG1, pf_rand⟩, rng)

/-- `MSMEG1::commit_and_prove`, src/prover/prove.rs:175-193. -/
def MSMEG1.commitAndProveTr (sch : Nat → Scheduler) (self : MSMEG1 F G1) (xvars : List G1)
    (scalar_yvars : List F) (crs : CRS G1 G2 GT) (rng : ρ) : Tr (CProof F G1 G2 × ρ) := do
  let (xcoms, rng) ← batchCommitG1Tr (F := F) xvars crs rng
  let (scalar_ycoms, rng) ← batchCommitScalarToB2Tr scalar_yvars crs rng
  let (pf, rng) ← self.proveTr sch xvars scalar_yvars xcoms scalar_ycoms crs rng
  pure (⟨xcoms, scalar_ycoms, [pf]⟩, rng)

/-- `MSMEG2::prove`, src/prover/prove.rs:298-379. -/
def MSMEG2.proveTr (sch : Nat → Scheduler) (self : MSMEG2 F G2) (scalar_xvars : List F)
    (yvars : List G2) (scalar_xcoms : Commit F G1) (ycoms : Commit F G2)
    (crs : CRS G1 G2 GT) (rng : ρ) : Tr (EquProof F G1 G2 × ρ) := do
  assertEq scalar_xvars.length scalar_xcoms.rand.length
  assertEq self.gamma.length scalar_xcoms.rand.length
  assertEq (← idx scalar_xcoms.rand 0).length 1
  assertEq yvars.length ycoms.rand.length
  assertEq (← idx self.gamma 0).length ycoms.rand.length
  assertEq (← idx ycoms.rand 0).length 2
  let is_parallel := true
  let x_rand_trans ← FieldMat.transpose scalar_xcoms.rand
  let y_rand_trans ← FieldMat.transpose ycoms.rand
  let (t00, rng) ← randFTr (F := F) G1 G2 rng
  let (t10, rng) ← randFTr (F := F) G1 G2 rng
  let pf_rand : Matrix F := [[t00], [t10]]
  let x_rand_lin_b ← ComMat.leftMulTr .G2 (sch 0) (vecToColVec (Com2.batchLinearMap self.b_consts))
    x_rand_trans is_parallel
  let x_rand_stmt ← FieldMat.rightMulTr (sch 1) x_rand_trans self.gamma is_parallel
  let x_rand_stmt_lin_y ← ComMat.leftMulTr .G2 (sch 2) (vecToColVec (Com2.batchLinearMap yvars))
    x_rand_stmt is_parallel
  let pf_rand_stmt ← FieldMat.addTr
    (← FieldMat.rightMulTr (sch 4) (← FieldMat.rightMulTr (sch 3) x_rand_trans self.gamma is_parallel)
      ycoms.rand is_parallel)
    (← FieldMat.negTr (← FieldMat.transpose pf_rand))
  let pf_rand_stmt_com2 ← ComMat.leftMulTr .G2 (sch 5) (vecToColVec crs.v) pf_rand_stmt is_parallel
  let pi ← colVecToVec (← ComMat.addTr .G2 (← ComMat.addTr .G2 x_rand_lin_b x_rand_stmt_lin_y) pf_rand_stmt_com2)
  assertEq pi.length 1
  let y_rand_lin_a ← ComMat.leftMulTr .G1 (sch 6)
    (vecToColVec (← Com1.batchScalarLinearMapTr self.a_consts crs)) y_rand_trans is_parallel
  let y_rand_stmt ← FieldMat.rightMulTr (sch 7) y_rand_trans (← FieldMat.transpose self.gamma) is_parallel
  let y_rand_stmt_lin_x ← ComMat.leftMulTr .G1 (sch 8)
    (vecToColVec (← Com1.batchScalarLinearMapTr scalar_xvars crs)) y_rand_stmt is_parallel
  let u1 : Matrix (Com G1) := [[← idx crs.u 0]]
  let pf_rand_com1 ← ComMat.leftMulTr .G1 (sch 9) u1 pf_rand is_parallel
  let theta ← colVecToVec (← ComMat.addTr .G1 (← ComMat.addTr .G1 y_rand_lin_a y_rand_stmt_lin_x) pf_rand_com1)
  assertEq theta.length 2
  pure (⟨pi, theta, .MultiScalarG2, pf_rand⟩, rng)

/-- `MSMEG2::commit_and_prove`, src/prover/prove.rs:278-296. -/
def MSMEG2.commitAndProveTr (sch : Nat → Scheduler) (self : MSMEG2 F G2) (scalar_xvars : List F)
    (yvars : List G2) (crs : CRS G1 G2 GT) (rng : ρ) : Tr (CProof F G1 G2 × ρ) := do
  let (scalar_xcoms, rng) ← batchCommitScalarToB1Tr scalar_xvars crs rng
  let (ycoms, rng) ← batchCommitG2Tr (F := F) yvars crs rng
  let (pf, rng) ← self.proveTr sch scalar_xvars yvars scalar_xcoms ycoms crs rng
  pure (⟨scalar_xcoms, ycoms, [pf]⟩, rng)

/-- `QuadEqu::prove`, src/prover/prove.rs:409-488. -/
def QuadEqu.proveTr (sch : Nat → Scheduler) (self : QuadEqu F) (scalar_xvars scalar_yvars : List F)
    (scalar_xcoms : Commit F G1) (scalar_ycoms : Commit F G2)
    (crs : CRS G1 G2 GT) (rng : ρ) : Tr (EquProof F G1 G2 × ρ) := do
  assertEq scalar_xvars.length scalar_xcoms.rand.length
  assertEq self.gamma.length scalar_xcoms.rand.length
  assertEq (← idx scalar_xcoms.rand 0).length 1
  assertEq scalar_yvars.length scalar_ycoms.rand.length
  assertEq (← idx self.gamma 0).length scalar_ycoms.rand.length
  assertEq (← idx scalar_ycoms.rand 0).length 1
  let is_parallel := true
  let x_rand_trans ← FieldMat.transpose scalar_xcoms.rand
  let y_rand_trans ← FieldMat.transpose scalar_ycoms.rand
  let (t00, rng) ← randFTr (F := F) G1 G2 rng
  let pf_rand : Matrix F := [[t00]]
  let x_rand_lin_b ← ComMat.leftMulTr .G2 (sch 0)
    (vecToColVec (← Com2.batchScalarLinearMapTr self.b_consts crs)) x_rand_trans is_parallel
  let x_rand_stmt ← FieldMat.rightMulTr (sch 1) x_rand_trans self.gamma is_parallel
  let x_rand_stmt_lin_y ← ComMat.leftMulTr .G2 (sch 2)
    (vecToColVec (← Com2.batchScalarLinearMapTr scalar_yvars crs)) x_rand_stmt is_parallel
  let pf_rand_stmt ← FieldMat.addTr
    (← FieldMat.rightMulTr (sch 4) (← FieldMat.rightMulTr (sch 3) x_rand_trans self.gamma is_parallel)
      scalar_ycoms.rand is_parallel)
    (← FieldMat.negTr (← FieldMat.transpose pf_rand))
  let v1 : Matrix (Com G2) := [[← idx crs.v 0]]
  let pf_rand_stmt_com2 ← ComMat.leftMulTr .G2 (sch 5) v1 pf_rand_stmt is_parallel
  let pi ← colVecToVec (← ComMat.addTr .G2 (← ComMat.addTr .G2 x_rand_lin_b x_rand_stmt_lin_y) pf_rand_stmt_com2)
  assertEq pi.length 1
  let y_rand_lin_a ← ComMat.leftMulTr .G1 (sch 6)
    (vecToColVec (← Com1.batchScalarLinearMapTr self.a_consts crs)) y_rand_trans is_parallel
  let y_rand_stmt ← FieldMat.rightMulTr (sch 7) y_rand_trans (← FieldMat.transpose self.gamma) is_parallel
  let y_rand_stmt_lin_x ← ComMat.leftMulTr .G1 (sch 8)
    (vecToColVec (← Com1.batchScalarLinearMapTr scalar_xvars crs)) y_rand_stmt is_parallel
  let u1 : Matrix (Com G1) := [[← idx crs.u 0]]
  let pf_rand_com1 ← ComMat.leftMulTr .G1 (sch 9) u1 pf_rand is_parallel
  let theta ← colVecToVec (← ComMat.addTr .G1 (← ComMat.addTr .G1 y_rand_lin_a y_rand_stmt_lin_x) pf_rand_com1)
  assertEq theta.length 1
  pure (⟨pi, theta, .Quadratic, pf_rand⟩, rng)

/-- `QuadEqu::commit_and_prove`, src/prover/prove.rs:383-408. -/
def QuadEqu.commitAndProveTr (sch : Nat → Scheduler) (self : QuadEqu F)
    (scalar_xvars scalar_yvars : List F) (crs : CRS G1 G2 GT) (rng : ρ) :
    Tr (CProof F G1 G2 × ρ) := do
  let (scalar_xcoms, rng) ← batchCommitScalarToB1Tr scalar_xvars crs rng
  let (scalar_ycoms, rng) ← batchCommitScalarToB2Tr scalar_yvars crs rng
  let (pf, rng) ← self.proveTr sch scalar_xvars scalar_yvars scalar_xcoms scalar_ycoms crs rng
  pure (⟨scalar_xcoms, scalar_ycoms, [pf]⟩, rng)

/-! ## The verifier -/

variable [AddCommGroup GT] [Module F GT] [DecidableEq GT]

/-- `PPE::verify`, src/verifier.rs:23-55. -/
def PPE.verifyTr (e : G1 →ₗ[F] G2 →ₗ[F] GT) (sch : Scheduler) (self : PPE F G1 G2 GT)
    (com_proof : CProof F G1 G2) (crs : CRS G1 G2 GT) : Tr Bool := do
  assertEq com_proof.equ_proofs.length 1
  let pf ← idx com_proof.equ_proofs 0
  assertEq self.getType pf.equ_type
  let is_parallel := true
  let lin_a_com_y ← ComT.pairingSumTr e (Com1.batchLinearMap self.a_consts) com_proof.ycoms.coms
  let com_x_lin_b ← ComT.pairingSumTr e com_proof.xcoms.coms (Com2.batchLinearMap self.b_consts)
  let stmt_com_y ← ComMat.leftMulTr .G2 sch (vecToColVec com_proof.ycoms.coms) self.gamma is_parallel
  let com_x_stmt_com_y ← ComT.pairingSumTr e com_proof.xcoms.coms (← colVecToVec stmt_com_y)
  let lin_t := ComT.linearMapPPE self.target
  let com1_pf2 ← ComT.pairingSumTr e crs.u pf.pi
  let pf1_com2 ← ComT.pairingSumTr e pf.theta crs.v
  let lhs ← ComT.addTr (← ComT.addTr lin_a_com_y com_x_lin_b) com_x_stmt_com_y
  let rhs ← ComT.addTr (← ComT.addTr lin_t com1_pf2) pf1_com2
  ComT.eqTr lhs rhs

/-- `MSMEG1::verify`, src/verifier.rs:57-89. -/
def MSMEG1.verifyTr (e : G1 →ₗ[F] G2 →ₗ[F] GT) (sch : Scheduler) (self : MSMEG1 F G1)
    (com_proof : CProof F G1 G2) (crs : CRS G1 G2 GT) : Tr Bool := do
  assertEq com_proof.equ_proofs.length 1
  let pf ← idx com_proof.equ_proofs 0
  assertEq self.getType pf.equ_type
  let is_parallel := true
  let lin_a_com_y ← ComT.pairingSumTr e (Com1.batchLinearMap self.a_consts) com_proof.ycoms.coms
  let com_x_lin_b ← ComT.pairingSumTr e com_proof.xcoms.coms
    (← Com2.batchScalarLinearMapTr self.b_consts crs)
  let stmt_com_y ← ComMat.leftMulTr .G2 sch (vecToColVec com_proof.ycoms.coms) self.gamma is_parallel
  let com_x_stmt_com_y ← ComT.pairingSumTr e com_proof.xcoms.coms (← colVecToVec stmt_com_y)
  let lin_t ← ComT.linearMapMSMEG1Tr e self.target crs
  let com1_pf2 ← ComT.pairingSumTr e crs.u pf.pi
  let pf1_com2 ← ComT.pairingTr e (← idx pf.theta 0) (← idx crs.v 0)
  let lhs ← ComT.addTr (← ComT.addTr lin_a_com_y com_x_lin_b) com_x_stmt_com_y
  let rhs ← ComT.addTr (← ComT.addTr lin_t com1_pf2) pf1_com2
  ComT.eqTr lhs rhs

/-- `MSMEG2::verify`, src/verifier.rs:91-123. -/
def MSMEG2.verifyTr (e : G1 →ₗ[F] G2 →ₗ[F] GT) (sch : Scheduler) (self : MSMEG2 F G2)
    (com_proof : CProof F G1 G2) (crs : CRS G1 G2 GT) : Tr Bool := do
  assertEq com_proof.equ_proofs.length 1
  let pf ← idx com_proof.equ_proofs 0
  assertEq self.getType pf.equ_type
  let is_parallel := true
  let lin_a_com_y ← ComT.pairingSumTr e (← Com1.batchScalarLinearMapTr self.a_consts crs)
    com_proof.ycoms.coms
  let com_x_lin_b ← ComT.pairingSumTr e com_proof.xcoms.coms (Com2.batchLinearMap self.b_consts)
  let stmt_com_y ← ComMat.leftMulTr .G2 sch (vecToColVec com_proof.ycoms.coms) self.gamma is_parallel
  let com_x_stmt_com_y ← ComT.pairingSumTr e com_proof.xcoms.coms (← colVecToVec stmt_com_y)
  let lin_t ← ComT.linearMapMSMEG2Tr e self.target crs
  let com1_pf2 ← ComT.pairingTr e (← idx crs.u 0) (← idx pf.pi 0)
  let pf1_com2 ← ComT.pairingSumTr e pf.theta crs.v
  let lhs ← ComT.addTr (← ComT.addTr lin_a_com_y com_x_lin_b) com_x_stmt_com_y
  let rhs ← ComT.addTr (← ComT.addTr lin_t com1_pf2) pf1_com2
  ComT.eqTr lhs rhs

/-- `QuadEqu::verify`, src/verifier.rs:125-157. -/
def QuadEqu.verifyTr (e : G1 →ₗ[F] G2 →ₗ[F] GT) (sch : Scheduler) (self : QuadEqu F)
    (com_proof : CProof F G1 G2) (crs : CRS G1 G2 GT) : Tr Bool := do
  assertEq com_proof.equ_proofs.length 1
  let pf ← idx com_proof.equ_proofs 0
  assertEq self.getType pf.equ_type
  let is_parallel := true
  let lin_a_com_y ← ComT.pairingSumTr e (← Com1.batchScalarLinearMapTr self.a_consts crs)
    com_proof.ycoms.coms
  let com_x_lin_b ← ComT.pairingSumTr e com_proof.xcoms.coms
    (← Com2.batchScalarLinearMapTr self.b_consts crs)
  let stmt_com_y ← ComMat.leftMulTr .G2 sch (vecToColVec com_proof.ycoms.coms) self.gamma is_parallel
  let com_x_stmt_com_y ← ComT.pairingSumTr e com_proof.xcoms.coms (← colVecToVec stmt_com_y)
  let lin_t ← ComT.linearMapQuadTr e self.target crs
  let com1_pf2 ← ComT.pairingTr e (← idx crs.u 0) (← idx pf.pi 0)
  let pf1_com2 ← ComT.pairingTr e (← idx pf.theta 0) (← idx crs.v 0)
  let lhs ← ComT.addTr (← ComT.addTr lin_a_com_y com_x_lin_b) com_x_stmt_com_y
  let rhs ← ComT.addTr (← ComT.addTr lin_t com1_pf2) pf1_com2
  ComT.eqTr lhs rhs

end GS
