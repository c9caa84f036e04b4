import Verif.Model.Miller
import Verif.Model.Raw

/-!
# The verifier and `generate_crs` on coordinates, with the panics of the pairing, src/verifier.rs and src/generator.rs

`E::pairing` and `E::multi_pairing` panic on coordinates for which the final exponentiation is given 0. `Verif/Model/Raw.lean` has a pairing that always returns;
here the functions called by `verify` are repeated with one that may panic. Pairings are computed in the order of the code, and the first panic ends the call.

Simplified: the message of a panic is dropped, and which of several panics of concurrent tasks is seen is as in `Verif/Model/Raw.lean`.
-/

namespace GS

/-- What a call panics with: the assertions and indices of the library, as in src/data_structures.rs:591-592, or the pairing, src/data_structures.rs:484-502. -/
inductive ArkPanic where
  | library (p : Panic)
  | pairing
  deriving DecidableEq, Repr

/-- Result of a call that may pair, src/verifier.rs:23-157. -/
abbrev ArkRes (α : Type) := Except ArkPanic α

/-- A call that does not pair, in one that may, src/verifier.rs:23-157. -/
def ofRes {α : Type} : Res α → ArkRes α
  | .ok a => .ok a
  | .error p => .error (.library p)

/-- A call that does not pair, in one that may, src/verifier.rs:23-157. -/
instance : MonadLift (Except Panic) (Except ArkPanic) := ⟨ofRes⟩

/-- The result of a pairing, where `none` is a panic, src/data_structures.rs:484-502. -/
def ofPairing {α : Type} : Option α → ArkRes α
  | some a => .ok a
  | none => .error .pairing

/-- `E::pairing` and `E::multi_pairing`, src/data_structures.rs:484-502. -/
structure ArkPairing (G1 G2 GT : Type) where
  one : G1 → G2 → Option GT
  multi : List G1 → List G2 → Option GT

variable {F G1 G2 GT : Type} [Field F] [Add G1] [Neg G1] [Zero G1] [SMul F G1] [Add G2] [Neg G2] [Zero G2] [SMul F G2] [Add GT] [Zero GT]

namespace Ark

/-- `pairing`, src/data_structures.rs:483-491. -/
def pairing (pr : ArkPairing G1 G2 GT) (x : Com G1) (y : Com G2) : ArkRes (ComT GT) := do
  let t0 ← ofPairing (pr.one x.c0 y.c0)
  let t1 ← ofPairing (pr.one x.c0 y.c1)
  let t2 ← ofPairing (pr.one x.c1 y.c0)
  let t3 ← ofPairing (pr.one x.c1 y.c1)
  pure ⟨t0, t1, t2, t3⟩

/-- `pairing_sum`, src/data_structures.rs:493-502. -/
def pairingSum (pr : ArkPairing G1 G2 GT) (xs : List (Com G1)) (ys : List (Com G2)) : ArkRes (ComT GT) := do
  assertEq xs.length ys.length
  let t0 ← ofPairing (pr.multi (xs.map fun x => x.c0) (ys.map fun y => y.c0))
  let t1 ← ofPairing (pr.multi (xs.map fun x => x.c0) (ys.map fun y => y.c1))
  let t2 ← ofPairing (pr.multi (xs.map fun x => x.c1) (ys.map fun y => y.c0))
  let t3 ← ofPairing (pr.multi (xs.map fun x => x.c1) (ys.map fun y => y.c1))
  pure ⟨t0, t1, t2, t3⟩

/-- `linear_map_MSMEG1`, src/data_structures.rs:518-524. -/
def linearMapMSMEG1 (F : Type) [Field F] [SMul F G2] (pr : ArkPairing G1 G2 GT) (z : G1) (key : CRS G1 G2 GT) : ArkRes (ComT GT) := do
  let i2 ← Raw.scalarLinearMap2 (1 : F) key
  pairing pr ⟨0, z⟩ i2

/-- `linear_map_MSMEG2`, src/data_structures.rs:526-532. -/
def linearMapMSMEG2 (F : Type) [Field F] [SMul F G1] (pr : ArkPairing G1 G2 GT) (z : G2) (key : CRS G1 G2 GT) : ArkRes (ComT GT) := do
  let i1 ← Raw.scalarLinearMap1 (1 : F) key
  pairing pr i1 ⟨0, z⟩

/-- `linear_map_quad`, src/data_structures.rs:534-540. -/
def linearMapQuad (pr : ArkPairing G1 G2 GT) (z : F) (key : CRS G1 G2 GT) : ArkRes (ComT GT) := do
  let i1 ← Raw.scalarLinearMap1 (1 : F) key
  let i2 ← Raw.scalarLinearMap2 (1 : F) key
  pairing pr i1 (Raw.scalarMul i2 z)

end Ark

open Raw
variable [DecidableEq GT]

/-- `PPE::verify`, src/verifier.rs:23-55. -/
def PPE.verifyArk (pr : ArkPairing G1 G2 GT) (sch : Scheduler) (self : PPE F G1 G2 GT)
    (com_proof : CProof F G1 G2) (crs : CRS G1 G2 GT) : ArkRes Bool := do
  assertEq com_proof.equ_proofs.length 1
  let pf ← idx com_proof.equ_proofs 0
  assertEq self.getType pf.equ_type
  let lin_a_com_y ← Ark.pairingSum pr (Com1.batchLinearMap self.a_consts) com_proof.ycoms.coms
  let com_x_lin_b ← Ark.pairingSum pr com_proof.xcoms.coms (Com2.batchLinearMap self.b_consts)
  let stmt_com_y ← leftMul sch (vecToColVec com_proof.ycoms.coms) self.gamma
  let com_x_stmt_com_y ← Ark.pairingSum pr com_proof.xcoms.coms (← colVecToVec stmt_com_y)
  let lin_t := ComT.linearMapPPE self.target
  let com1_pf2 ← Ark.pairingSum pr crs.u pf.pi
  let pf1_com2 ← Ark.pairingSum pr pf.theta crs.v
  let lhs := lin_a_com_y + com_x_lin_b + com_x_stmt_com_y
  let rhs := lin_t + com1_pf2 + pf1_com2
  pure (ComT.eq lhs rhs)

/-- `MSMEG1::verify`, src/verifier.rs:57-89. -/
def MSMEG1.verifyArk (pr : ArkPairing G1 G2 GT) (sch : Scheduler) (self : MSMEG1 F G1)
    (com_proof : CProof F G1 G2) (crs : CRS G1 G2 GT) : ArkRes Bool := do
  assertEq com_proof.equ_proofs.length 1
  let pf ← idx com_proof.equ_proofs 0
  assertEq self.getType pf.equ_type
  let lin_a_com_y ← Ark.pairingSum pr (Com1.batchLinearMap self.a_consts) com_proof.ycoms.coms
  let com_x_lin_b ← Ark.pairingSum pr com_proof.xcoms.coms
    (← collect (fun y => scalarLinearMap2 y crs) self.b_consts)
  let stmt_com_y ← leftMul sch (vecToColVec com_proof.ycoms.coms) self.gamma
  let com_x_stmt_com_y ← Ark.pairingSum pr com_proof.xcoms.coms (← colVecToVec stmt_com_y)
  let lin_t ← Ark.linearMapMSMEG1 F pr self.target crs
  let com1_pf2 ← Ark.pairingSum pr crs.u pf.pi
  let pf1_com2 ← Ark.pairing pr (← idx pf.theta 0) (← idx crs.v 0)
  let lhs := lin_a_com_y + com_x_lin_b + com_x_stmt_com_y
  let rhs := lin_t + com1_pf2 + pf1_com2
  pure (ComT.eq lhs rhs)

/-- `MSMEG2::verify`, src/verifier.rs:91-123. -/
def MSMEG2.verifyArk (pr : ArkPairing G1 G2 GT) (sch : Scheduler) (self : MSMEG2 F G2)
    (com_proof : CProof F G1 G2) (crs : CRS G1 G2 GT) : ArkRes Bool := do
  assertEq com_proof.equ_proofs.length 1
  let pf ← idx com_proof.equ_proofs 0
  assertEq self.getType pf.equ_type
  let lin_a_com_y ← Ark.pairingSum pr (← collect (fun x => scalarLinearMap1 x crs) self.a_consts)
    com_proof.ycoms.coms
  let com_x_lin_b ← Ark.pairingSum pr com_proof.xcoms.coms (Com2.batchLinearMap self.b_consts)
  let stmt_com_y ← leftMul sch (vecToColVec com_proof.ycoms.coms) self.gamma
  let com_x_stmt_com_y ← Ark.pairingSum pr com_proof.xcoms.coms (← colVecToVec stmt_com_y)
  let lin_t ← Ark.linearMapMSMEG2 F pr self.target crs
  let com1_pf2 ← Ark.pairing pr (← idx crs.u 0) (← idx pf.pi 0)
  let pf1_com2 ← Ark.pairingSum pr pf.theta crs.v
  let lhs := lin_a_com_y + com_x_lin_b + com_x_stmt_com_y
  let rhs := lin_t + com1_pf2 + pf1_com2
  pure (ComT.eq lhs rhs)

/-- `QuadEqu::verify`, src/verifier.rs:125-157. -/
def QuadEqu.verifyArk (pr : ArkPairing G1 G2 GT) (sch : Scheduler) (self : QuadEqu F)
    (com_proof : CProof F G1 G2) (crs : CRS G1 G2 GT) : ArkRes Bool := do
  assertEq com_proof.equ_proofs.length 1
  let pf ← idx com_proof.equ_proofs 0
  assertEq self.getType pf.equ_type
  let lin_a_com_y ← Ark.pairingSum pr (← collect (fun x => scalarLinearMap1 x crs) self.a_consts)
    com_proof.ycoms.coms
  let com_x_lin_b ← Ark.pairingSum pr com_proof.xcoms.coms
    (← collect (fun y => scalarLinearMap2 y crs) self.b_consts)
  let stmt_com_y ← leftMul sch (vecToColVec com_proof.ycoms.coms) self.gamma
  let com_x_stmt_com_y ← Ark.pairingSum pr com_proof.xcoms.coms (← colVecToVec stmt_com_y)
  let lin_t ← Ark.linearMapQuad pr self.target crs
  let com1_pf2 ← Ark.pairing pr (← idx crs.u 0) (← idx pf.pi 0)
  let pf1_com2 ← Ark.pairing pr (← idx pf.theta 0) (← idx crs.v 0)
  let lhs := lin_a_com_y + com_x_lin_b + com_x_stmt_com_y
  let rhs := lin_t + com1_pf2 + pf1_com2
  pure (ComT.eq lhs rhs)

section
variable {F K1 K2 RT : Type} [Field K1] [DecidableEq K1] [Field K2] [DecidableEq K2] [MulProjective F K1] [MulProjective F K2]

/-- `generate_crs`, src/generator.rs:80-119, whose last step is a pairing. -/
def generateArk {ρ : Type} [Rng ρ F (Projective K1) (Projective K2)] (pr : ArkPairing (Affine K1) (Affine K2) RT) (rng : ρ) :
    ArkRes (CRS (Affine K1) (Affine K2) RT × ρ) := do
  let (crs, rng) := generateCoord (F := F) pr.one rng
  let gt ← ofPairing crs.gt_gen
  pure (⟨crs.u, crs.v, crs.g1_gen, crs.g2_gen, gt⟩, rng)

end

end GS
