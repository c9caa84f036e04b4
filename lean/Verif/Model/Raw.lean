import Verif.Model.Prove

/-!
# The verifier on points that were never checked, src/verifier.rs

`Validate::No`, `G1Affine::new_unchecked` and the public fields of `Com1` and `Com2` let points of the curve through that
are not in the subgroup of prime order. On such points multiplication by a scalar is multiplication by an integer
representing it, which is no longer a module structure over the scalar field, and the pairing need not be bilinear.

The functions called by `verify` are repeated here with no law assumed of the addition, of the multiplication `•` by scalars and
of the pairing `e`, which is any function. `C101_agrees` shows that this is `Verif/Model/Verify.lean` where these are a module
structure and a bilinear map. `Verif/Model/Coord.lean` has the operations on coordinates, of points on the curve and off it.
-/

namespace GS
variable {F G G1 G2 GT : Type} [Field F] [Add G] [Neg G] [Zero G] [SMul F G] [Add G1] [Neg G1] [Zero G1] [SMul F G1]
  [Add G2] [Neg G2] [Zero G2] [SMul F G2] [Add GT] [Neg GT] [Sub GT] [Zero GT]

namespace Raw

/-- `scalar_mul`, src/data_structures.rs:336-342 (`Com1`) and 381-387 (`Com2`). -/
def scalarMul (a : Com G) (rhs : F) : Com G := ⟨rhs • a.c0, rhs • a.c1⟩

/-- `Com1::scalar_linear_map`, src/data_structures.rs:322-326. -/
def scalarLinearMap1 (x : F) (key : CRS G1 G2 GT) : Res (Com G1) := do
  let u1 ← idx key.u 1
  pure (scalarMul (u1 + ⟨0, key.g1_gen⟩) x)

/-- `Com2::scalar_linear_map`, src/data_structures.rs:367-371. -/
def scalarLinearMap2 (y : F) (key : CRS G1 G2 GT) : Res (Com G2) := do
  let v1 ← idx key.v 1
  pure (scalarMul (v1 + ⟨0, key.g2_gen⟩) y)

/-- `E::multi_pairing`: the sum of the pairings. Called at src/data_structures.rs:497-500. -/
def multiPairing (e : G1 → G2 → GT) (xs : List G1) (ys : List G2) : GT := rustSum (List.zipWith e xs ys)

/-- `pairing`, src/data_structures.rs:483-491. -/
def pairing (e : G1 → G2 → GT) (x : Com G1) (y : Com G2) : ComT GT :=
  ⟨e x.c0 y.c0, e x.c0 y.c1, e x.c1 y.c0, e x.c1 y.c1⟩

/-- `pairing_sum`, src/data_structures.rs:493-502. -/
def pairingSum (e : G1 → G2 → GT) (xs : List (Com G1)) (ys : List (Com G2)) : Res (ComT GT) := do
  assertEq xs.length ys.length
  pure ⟨multiPairing e (xs.map fun x => x.c0) (ys.map fun y => y.c0),
        multiPairing e (xs.map fun x => x.c0) (ys.map fun y => y.c1),
        multiPairing e (xs.map fun x => x.c1) (ys.map fun y => y.c0),
        multiPairing e (xs.map fun x => x.c1) (ys.map fun y => y.c1)⟩

/-- `left_mul` with `is_parallel = true`, src/data_structures.rs:696-727. -/
def leftMul (sch : Scheduler) (self : Matrix (Com G)) (lhs : Matrix F) : Res (Matrix (Com G)) := do
  if isEmptyMat lhs then return []
  if isEmptyMat self then return []
  assertEq (← firstRowLen lhs) self.length
  let rowDim := lhs.length
  let colDim ← firstRowLen self
  parGrid sch rowDim colDim fun i j => do
    let row ← idx lhs i
    let dim := self.length
    let terms ← collect (fun k => do pure (scalarMul (← idx2 self k j) (← idx row k))) (List.range dim)
    pure (rustSum terms)

/-- `linear_map_MSMEG1`, src/data_structures.rs:518-524. -/
def linearMapMSMEG1 (F : Type) [Field F] [SMul F G2] (e : G1 → G2 → GT) (z : G1) (key : CRS G1 G2 GT) : Res (ComT GT) := do
  let i2 ← scalarLinearMap2 (1 : F) key
  pure (pairing e ⟨0, z⟩ i2)

/-- `linear_map_MSMEG2`, src/data_structures.rs:526-532. -/
def linearMapMSMEG2 (F : Type) [Field F] [SMul F G1] (e : G1 → G2 → GT) (z : G2) (key : CRS G1 G2 GT) : Res (ComT GT) := do
  let i1 ← scalarLinearMap1 (1 : F) key
  pure (pairing e i1 ⟨0, z⟩)

/-- `linear_map_quad`, src/data_structures.rs:534-540. -/
def linearMapQuad (e : G1 → G2 → GT) (z : F) (key : CRS G1 G2 GT) : Res (ComT GT) := do
  let i1 ← scalarLinearMap1 (1 : F) key
  let i2 ← scalarLinearMap2 (1 : F) key
  pure (pairing e i1 (scalarMul i2 z))

end Raw

open Raw
variable [DecidableEq GT]

/-- `PPE::verify`, src/verifier.rs:23-55. -/
def PPE.verifyRaw (e : G1 → G2 → GT) (sch : Scheduler) (self : PPE F G1 G2 GT)
    (com_proof : CProof F G1 G2) (crs : CRS G1 G2 GT) : Res Bool := do
  assertEq com_proof.equ_proofs.length 1
  let pf ← idx com_proof.equ_proofs 0
  assertEq self.getType pf.equ_type
  let lin_a_com_y ← pairingSum e (Com1.batchLinearMap self.a_consts) com_proof.ycoms.coms
  let com_x_lin_b ← pairingSum e com_proof.xcoms.coms (Com2.batchLinearMap self.b_consts)
  let stmt_com_y ← leftMul sch (vecToColVec com_proof.ycoms.coms) self.gamma
  let com_x_stmt_com_y ← pairingSum e com_proof.xcoms.coms (← colVecToVec stmt_com_y)
  let lin_t := ComT.linearMapPPE self.target
  let com1_pf2 ← pairingSum e crs.u pf.pi
  let pf1_com2 ← pairingSum e pf.theta crs.v
  let lhs := lin_a_com_y + com_x_lin_b + com_x_stmt_com_y
  let rhs := lin_t + com1_pf2 + pf1_com2
  pure (ComT.eq lhs rhs)

/-- `MSMEG1::verify`, src/verifier.rs:57-89. -/
def MSMEG1.verifyRaw (e : G1 → G2 → GT) (sch : Scheduler) (self : MSMEG1 F G1)
    (com_proof : CProof F G1 G2) (crs : CRS G1 G2 GT) : Res Bool := do
  assertEq com_proof.equ_proofs.length 1
  let pf ← idx com_proof.equ_proofs 0
  assertEq self.getType pf.equ_type
  let lin_a_com_y ← pairingSum e (Com1.batchLinearMap self.a_consts) com_proof.ycoms.coms
  let com_x_lin_b ← pairingSum e com_proof.xcoms.coms
    (← collect (fun y => scalarLinearMap2 y crs) self.b_consts)
  let stmt_com_y ← leftMul sch (vecToColVec com_proof.ycoms.coms) self.gamma
  let com_x_stmt_com_y ← pairingSum e com_proof.xcoms.coms (← colVecToVec stmt_com_y)
  let lin_t ← linearMapMSMEG1 F e self.target crs
  let com1_pf2 ← pairingSum e crs.u pf.pi
  let pf1_com2 := pairing e (← idx pf.theta 0) (← idx crs.v 0)
  let lhs := lin_a_com_y + com_x_lin_b + com_x_stmt_com_y
  let rhs := lin_t + com1_pf2 + pf1_com2
  pure (ComT.eq lhs rhs)

/-- `MSMEG2::verify`, src/verifier.rs:91-123. -/
def MSMEG2.verifyRaw (e : G1 → G2 → GT) (sch : Scheduler) (self : MSMEG2 F G2)
    (com_proof : CProof F G1 G2) (crs : CRS G1 G2 GT) : Res Bool := do
  assertEq com_proof.equ_proofs.length 1
  let pf ← idx com_proof.equ_proofs 0
  assertEq self.getType pf.equ_type
  let lin_a_com_y ← pairingSum e (← collect (fun x => scalarLinearMap1 x crs) self.a_consts)
    com_proof.ycoms.coms
  let com_x_lin_b ← pairingSum e com_proof.xcoms.coms (Com2.batchLinearMap self.b_consts)
  let stmt_com_y ← leftMul sch (vecToColVec com_proof.ycoms.coms) self.gamma
  let com_x_stmt_com_y ← pairingSum e com_proof.xcoms.coms (← colVecToVec stmt_com_y)
  let lin_t ← linearMapMSMEG2 F e self.target crs
  let com1_pf2 := pairing e (← idx crs.u 0) (← idx pf.pi 0)
  let pf1_com2 ← pairingSum e pf.theta crs.v
  let lhs := lin_a_com_y + com_x_lin_b + com_x_stmt_com_y
  let rhs := lin_t + com1_pf2 + pf1_com2
  pure (ComT.eq lhs rhs)

/-- `QuadEqu::verify`, src/verifier.rs:125-157. -/
def QuadEqu.verifyRaw (e : G1 → G2 → GT) (sch : Scheduler) (self : QuadEqu F)
    (com_proof : CProof F G1 G2) (crs : CRS G1 G2 GT) : Res Bool := do
  assertEq com_proof.equ_proofs.length 1
  let pf ← idx com_proof.equ_proofs 0
  assertEq self.getType pf.equ_type
  let lin_a_com_y ← pairingSum e (← collect (fun x => scalarLinearMap1 x crs) self.a_consts)
    com_proof.ycoms.coms
  let com_x_lin_b ← pairingSum e com_proof.xcoms.coms
    (← collect (fun y => scalarLinearMap2 y crs) self.b_consts)
  let stmt_com_y ← leftMul sch (vecToColVec com_proof.ycoms.coms) self.gamma
  let com_x_stmt_com_y ← pairingSum e com_proof.xcoms.coms (← colVecToVec stmt_com_y)
  let lin_t ← linearMapQuad e self.target crs
  let com1_pf2 := pairing e (← idx crs.u 0) (← idx pf.pi 0)
  let pf1_com2 := pairing e (← idx pf.theta 0) (← idx crs.v 0)
  let lhs := lin_a_com_y + com_x_lin_b + com_x_stmt_com_y
  let rhs := lin_t + com1_pf2 + pf1_com2
  pure (ComT.eq lhs rhs)

end GS
