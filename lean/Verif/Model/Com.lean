import Verif.Model.Basic
import Mathlib.Algebra.Module.LinearMap.Basic
import Mathlib.Algebra.Module.LinearMap.End
import Mathlib.LinearAlgebra.BilinearMap

/-!
# The commitment groups `Com1`, `Com2`, `ComT`

Models src/data_structures.rs:127-541.  `E: Pairing` is a field `F`, modules `G1`, `G2`, `GT` and
a bilinear map `e`.  Affine and projective forms of a point are one value, so `.into()`,
`.into_group()` and `.into_affine()` disappear.
-/

namespace GS

/-- `Com1<E>` and `Com2<E>`, src/data_structures.rs:127-133: a pair of points of one source group.
`Com1<E>` is `Com G1` and `Com2<E>` is `Com G2`; both get their operations from the
macro `impl_base_commit_groups!`. -/
@[ext]
structure Com (G : Type) where
  c0 : G
  c1 : G
  deriving DecidableEq

/-- `ComT<E>`, src/data_structures.rs:135-142. -/
@[ext]
structure ComT (GT : Type) where
  t0 : GT
  t1 : GT
  t2 : GT
  t3 : GT
  deriving DecidableEq

/-- The CRS, src/generator.rs:34-42. -/
structure CRS (G1 G2 GT : Type) where
  u : List (Com G1)
  v : List (Com G2)
  g1_gen : G1
  g2_gen : G2
  gt_gen : GT

namespace Com
variable {G : Type}

section Group
variable [Add G] [Neg G] [Zero G]

/-- `==`, src/data_structures.rs:171-177. -/
def eq [DecidableEq G] (a b : Com G) : Bool := a.c0 == b.c0 && a.c1 == b.c1

/-- `add`, src/data_structures.rs:181-191. -/
def add (a b : Com G) : Com G := ⟨a.c0 + b.c0, a.c1 + b.c1⟩

/-- `add_assign`, src/data_structures.rs:192-201 (returns the new value of `self`). -/
def addAssign (a b : Com G) : Com G := ⟨a.c0 + b.c0, a.c1 + b.c1⟩

/-- `neg`, src/data_structures.rs:202-212. -/
def neg (a : Com G) : Com G := ⟨-a.c0, -a.c1⟩

/-- `sub`, src/data_structures.rs:213-220. -/
def sub (a b : Com G) : Com G := add a (neg b)

/-- `sub_assign`, src/data_structures.rs:221-227 (returns the new value of `self`). -/
def subAssign (a b : Com G) : Com G := addAssign a (neg b)

/-- `zero`, src/data_structures.rs:257-261 and 268-272. -/
def zero : Com G := ⟨0, 0⟩

/-- src/data_structures.rs:181-191. -/
instance : Add (Com G) := ⟨Com.add⟩
/-- src/data_structures.rs:202-212. -/
instance : Neg (Com G) := ⟨Com.neg⟩
/-- src/data_structures.rs:213-220. -/
instance : Sub (Com G) := ⟨Com.sub⟩
/-- src/data_structures.rs:257-278. -/
instance : Zero (Com G) := ⟨Com.zero⟩

/-- `is_zero`, src/data_structures.rs:263-266 and 274-277. -/
def isZero [DecidableEq G] (a : Com G) : Bool := eq a 0

end Group

/-- `scalar_mul`, src/data_structures.rs:336-342 (`Com1`) and 381-387 (`Com2`); identical texts. -/
def scalarMul [AddCommGroup G] {F : Type} [Field F] [Module F G] (a : Com G) (rhs : F) : Com G :=
  ⟨rhs • a.c0, rhs • a.c1⟩

/-- `From<Matrix<..>>`, src/data_structures.rs:283-298. -/
def fromMatrix (mat : Matrix G) : Res (Com G) := do
  assertEq mat.length 2
  assertEq (← idx mat 0).length 1
  assertEq (← idx mat 1).length 1
  pure ⟨← idx2 mat 0 0, ← idx2 mat 1 0⟩

/-- `as_col_vec`, src/data_structures.rs:301-303 and 346-348. -/
def asColVec (a : Com G) : Matrix G := [[a.c0], [a.c1]]

/-- `as_vec`, src/data_structures.rs:305-307 and 350-352. -/
def asVec (a : Com G) : List G := [a.c0, a.c1]

end Com

/-- `Com1::linear_map`, src/data_structures.rs:309-312. -/
def Com1.linearMap {G1 : Type} [Zero G1] (x : G1) : Com G1 := ⟨0, x⟩

/-- `Com1::batch_linear_map`, src/data_structures.rs:314-320. -/
def Com1.batchLinearMap {G1 : Type} [Zero G1] (xs : List G1) : List (Com G1) := xs.map fun x => Com1.linearMap x

/-- `Com2::linear_map`, src/data_structures.rs:354-357. -/
def Com2.linearMap {G2 : Type} [Zero G2] (y : G2) : Com G2 := ⟨0, y⟩

/-- `Com2::batch_linear_map`, src/data_structures.rs:359-365. -/
def Com2.batchLinearMap {G2 : Type} [Zero G2] (ys : List G2) : List (Com G2) := ys.map fun y => Com2.linearMap y

section LinearMaps
variable {F G1 G2 GT : Type} [Field F] [AddCommGroup G1] [Module F G1] [AddCommGroup G2] [Module F G2]

/-- `Com1::scalar_linear_map`, src/data_structures.rs:322-326; panics if the key is too short. -/
def Com1.scalarLinearMap (x : F) (key : CRS G1 G2 GT) : Res (Com G1) := do
  let u1 ← idx key.u 1
  pure ((u1 + Com1.linearMap key.g1_gen).scalarMul x)

/-- `Com1::batch_scalar_linear_map`, src/data_structures.rs:328-334. -/
def Com1.batchScalarLinearMap (xs : List F) (key : CRS G1 G2 GT) : Res (List (Com G1)) :=
  collect (fun x => Com1.scalarLinearMap x key) xs

/-- `Com2::scalar_linear_map`, src/data_structures.rs:367-371; panics if the key is too short. -/
def Com2.scalarLinearMap (y : F) (key : CRS G1 G2 GT) : Res (Com G2) := do
  let v1 ← idx key.v 1
  pure ((v1 + Com2.linearMap key.g2_gen).scalarMul y)

/-- `Com2::batch_scalar_linear_map`, src/data_structures.rs:373-379. -/
def Com2.batchScalarLinearMap (ys : List F) (key : CRS G1 G2 GT) : Res (List (Com G2)) :=
  collect (fun y => Com2.scalarLinearMap y key) ys

end LinearMaps

namespace ComT
section Group
variable {GT : Type} [Add GT] [Neg GT] [Sub GT] [Zero GT]

/-- `==`, src/data_structures.rs:391-396. -/
def eq [DecidableEq GT] (a b : ComT GT) : Bool :=
  a.t0 == b.t0 && a.t1 == b.t1 && a.t2 == b.t2 && a.t3 == b.t3

/-- `add`, src/data_structures.rs:399-411. -/
def add (a b : ComT GT) : ComT GT := ⟨a.t0 + b.t0, a.t1 + b.t1, a.t2 + b.t2, a.t3 + b.t3⟩

/-- `zero`, src/data_structures.rs:412-421. -/
def zero : ComT GT := ⟨0, 0, 0, 0⟩

/-- `add_assign`, src/data_structures.rs:428-436 (returns the new value of `self`). -/
def addAssign (a b : ComT GT) : ComT GT := ⟨a.t0 + b.t0, a.t1 + b.t1, a.t2 + b.t2, a.t3 + b.t3⟩

/-- `neg`, src/data_structures.rs:437-444. -/
def neg (a : ComT GT) : ComT GT := ⟨-a.t0, -a.t1, -a.t2, -a.t3⟩

/-- `sub`, src/data_structures.rs:445-457. -/
def sub (a b : ComT GT) : ComT GT := ⟨a.t0 - b.t0, a.t1 - b.t1, a.t2 - b.t2, a.t3 - b.t3⟩

/-- `sub_assign`, src/data_structures.rs:458-466 (returns the new value of `self`). -/
def subAssign (a b : ComT GT) : ComT GT := ⟨a.t0 - b.t0, a.t1 - b.t1, a.t2 - b.t2, a.t3 - b.t3⟩

/-- src/data_structures.rs:399-411. -/
instance : Add (ComT GT) := ⟨ComT.add⟩
/-- src/data_structures.rs:437-444. -/
instance : Neg (ComT GT) := ⟨ComT.neg⟩
/-- src/data_structures.rs:445-457. -/
instance : Sub (ComT GT) := ⟨ComT.sub⟩
/-- src/data_structures.rs:412-427. -/
instance : Zero (ComT GT) := ⟨ComT.zero⟩

/-- `is_zero`, src/data_structures.rs:423-426. -/
def isZero [DecidableEq GT] (a : ComT GT) : Bool := eq a 0

/-- `From<Matrix<PairingOutput<E>>>`, src/data_structures.rs:467-474. -/
def fromMatrix (mat : Matrix GT) : Res (ComT GT) := do
  assertEq mat.length 2
  assertEq (← idx mat 0).length 2
  assertEq (← idx mat 1).length 2
  pure ⟨← idx2 mat 0 0, ← idx2 mat 0 1, ← idx2 mat 1 0, ← idx2 mat 1 1⟩

/-- `as_matrix`, src/data_structures.rs:504-506. -/
def asMatrix (a : ComT GT) : Matrix GT := [[a.t0, a.t1], [a.t2, a.t3]]

/-- `linear_map_PPE`, src/data_structures.rs:508-516. -/
def linearMapPPE (z : GT) : ComT GT := ⟨0, 0, 0, z⟩

end Group

section Pairing
variable {F G1 G2 GT : Type} [Field F] [AddCommGroup G1] [Module F G1] [AddCommGroup G2] [Module F G2]
  [AddCommGroup GT] [Module F GT] (e : G1 →ₗ[F] G2 →ₗ[F] GT)

/-- `E::multi_pairing(xs, ys)` of arkworks on lists of equal length (trusted contract):
the sum of the pairings. Called at src/data_structures.rs:497-500. -/
def multiPairing (xs : List G1) (ys : List G2) : GT :=
  rustSum (List.zipWith (fun x y => e x y) xs ys)

/-- `pairing`, src/data_structures.rs:483-491. -/
def pairing (x : Com G1) (y : Com G2) : ComT GT :=
  ⟨e x.c0 y.c0, e x.c0 y.c1, e x.c1 y.c0, e x.c1 y.c1⟩

/-- `pairing_sum`, src/data_structures.rs:493-502. -/
def pairingSum (xs : List (Com G1)) (ys : List (Com G2)) : Res (ComT GT) := do
  assertEq xs.length ys.length
  pure ⟨multiPairing e (xs.map fun x => x.c0) (ys.map fun y => y.c0),
        multiPairing e (xs.map fun x => x.c0) (ys.map fun y => y.c1),
        multiPairing e (xs.map fun x => x.c1) (ys.map fun y => y.c0),
        multiPairing e (xs.map fun x => x.c1) (ys.map fun y => y.c1)⟩

/-- `linear_map_MSMEG1`, src/data_structures.rs:518-524. -/
def linearMapMSMEG1 (z : G1) (key : CRS G1 G2 GT) : Res (ComT GT) := do
  let i2 ← Com2.scalarLinearMap (1 : F) key
  pure (pairing e (Com1.linearMap z) i2)

/-- `linear_map_MSMEG2`, src/data_structures.rs:526-532. -/
def linearMapMSMEG2 (z : G2) (key : CRS G1 G2 GT) : Res (ComT GT) := do
  let i1 ← Com1.scalarLinearMap (1 : F) key
  pure (pairing e i1 (Com2.linearMap z))

/-- `linear_map_quad`, src/data_structures.rs:534-540. -/
def linearMapQuad (z : F) (key : CRS G1 G2 GT) : Res (ComT GT) := do
  let i1 ← Com1.scalarLinearMap (1 : F) key
  let i2 ← Com2.scalarLinearMap (1 : F) key
  pure (pairing e i1 (i2.scalarMul z))

end Pairing
end ComT

end GS
