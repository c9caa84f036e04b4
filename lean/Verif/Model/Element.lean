import Verif.Model.Serialize
import Mathlib.Data.ZMod.Basic

/-!
# Field and group elements: the codecs of ark-ff and ark-ec

The other files take the codecs of elements as parameters. Here are those that the arkworks 0.5 libraries give to prime fields, their
quadratic extensions, points of short Weierstrass curves in affine coordinates (`E::G1Affine`, `E::G2Affine`) and elements of the target group
(`PairingOutput<E>`). Like ark-serialize, these libraries are not in /repo; they are modelled after their published
source. The format of ark-bls12-381 is in `Verif/Model/Bls.lean`. Not modelled: other curves with formats of their own, fields whose
elements with two flag bits take more bytes than their limbs.
-/

namespace GS

/-- `SWFlags` of ark-serialize, the two highest bits of the last byte. The elements of the derived
formats at src/data_structures.rs:128-135, src/generator.rs:35 and src/statement.rs:117-179. -/
inductive SWFlags where
  | YIsPositive
  | PointAtInfinity
  | YIsNegative
  deriving DecidableEq, Repr

/-- `SWFlags::u8_bitmask`. The elements of the derived formats at src/data_structures.rs:128-135,
src/generator.rs:35 and src/statement.rs:117-179. -/
def SWFlags.mask : SWFlags → UInt8
  | .YIsPositive => 0
  | .PointAtInfinity => 0x40
  | .YIsNegative => 0x80

/-- `SWFlags::from_u8`. The elements of the derived formats at src/data_structures.rs:128-135,
src/generator.rs:35 and src/statement.rs:117-179. -/
def SWFlags.fromU8 (b : UInt8) : Option SWFlags :=
  match decide ((b >>> 7) &&& 1 = 1), decide ((b >>> 6) &&& 1 = 1) with
  | true, true => none
  | false, true => some .PointAtInfinity
  | true, false => some .YIsNegative
  | false, false => some .YIsPositive

/-- The methods of a field: `CanonicalSerialize`, `CanonicalDeserialize` and the same with
`SWFlags`. The elements of the derived formats at src/data_structures.rs:128-135,
src/generator.rs:35 and src/statement.rs:117-179. -/
structure FieldCodec (B : Type) where
  plain : Codec B
  serFlags : B → SWFlags → Bytes
  sizeFlags : B → Nat
  deFlags : Bytes → Except SerErr ((B × SWFlags) × Bytes)

/-- A change of the last byte. The elements of the derived formats at
src/data_structures.rs:128-135, src/generator.rs:35 and src/statement.rs:117-179. -/
def onLast (f : UInt8 → UInt8) : Bytes → Bytes
  | [] => []
  | [b] => [f b]
  | b :: c :: l => b :: onLast f (c :: l)

/-- `Fp` of ark-ff: `k` little-endian bytes, `k'` with flags; numbers from the modulus on are
rejected. The elements of the derived formats at src/data_structures.rs:128-135,
src/generator.rs:35 and src/statement.rs:117-179. -/
def fpCodec (p k k' : Nat) : FieldCodec (ZMod p) where
  plain :=
    { ser := fun _ x => leBytes k x.val
      size := fun _ _ => k
      de := fun _ _ bs => do
        let (b, rest) ← readExact k bs
        if leNat b < p then pure ((leNat b : ZMod p), rest) else .error .invalidData
      check := fun _ => .ok ()
      batchCheck := loopCheck fun _ => .ok () }
  serFlags x fl := onLast (· ||| fl.mask) (leBytes k' x.val)
  sizeFlags _ := k'
  deFlags bs := do
    let (b, rest) ← readExact k' bs
    match SWFlags.fromU8 (b.getLastD 0) with
    | none => .error .unexpectedFlags
    | some fl =>
      let n := leNat (onLast (· &&& ~~~fl.mask) b)
      if n < p then pure (((n : ZMod p), fl), rest) else .error .invalidData

/-- `QuadExtField` of ark-ff: the two coordinates, the flags in the second. `fields` are the
coordinates `c0` and `c1`. The elements of the derived formats at src/data_structures.rs:128-135,
src/generator.rs:35 and src/statement.rs:117-179. -/
def quadCodec {B C : Type} (c : FieldCodec B) (mk : B × B → C) (fields : C → B × B) : FieldCodec C where
  plain := structCodec mk fields (prodCodec c.plain c.plain)
  serFlags x fl := c.plain.ser .Yes (fields x).1 ++ c.serFlags (fields x).2 fl
  sizeFlags x := c.plain.size .Yes (fields x).1 + c.sizeFlags (fields x).2
  deFlags bs := do
    let (a, bs) ← c.plain.de .Yes .Yes bs
    let ((b, fl), bs) ← c.deFlags bs
    pure ((mk (a, b), fl), bs)

/-- `CubicExtField` of ark-ff: the three coordinates, the flags in the third. The elements of the
derived formats at src/data_structures.rs:128-135, src/generator.rs:35 and
src/statement.rs:117-179. -/
def cubicCodec {B C : Type} (c : FieldCodec B) (mk : B × B × B → C) (fields : C → B × B × B) : FieldCodec C where
  plain := structCodec mk fields (prodCodec c.plain (prodCodec c.plain c.plain))
  serFlags x fl := c.plain.ser .Yes (fields x).1 ++ (c.plain.ser .Yes (fields x).2.1 ++ c.serFlags (fields x).2.2 fl)
  sizeFlags x := c.plain.size .Yes (fields x).1 + (c.plain.size .Yes (fields x).2.1 + c.sizeFlags (fields x).2.2)
  deFlags bs := do
    let (a, bs) ← c.plain.de .Yes .Yes bs
    let (b, bs) ← c.plain.de .Yes .Yes bs
    let ((d, fl), bs) ← c.deFlags bs
    pure ((mk (a, b, d), fl), bs)

/-- `Affine` of ark-ec. The fields are public, so nothing ties `x` and `y` to the curve, or to
zero at infinity. The elements of the derived formats at src/data_structures.rs:128-135,
src/generator.rs:35 and src/statement.rs:117-179. -/
structure Affine (B : Type) where
  x : B
  y : B
  infinity : Bool
  deriving DecidableEq, Repr

/-- `Affine::identity`. The elements of the derived formats at src/data_structures.rs:128-135,
src/generator.rs:35 and src/statement.rs:117-179. -/
def Affine.identity {B : Type} [Zero B] : Affine B := ⟨0, 0, true⟩

/-- A curve `y² = x³ + a x + b` (`SWCurveConfig`), with the square root and the order of its base field and the test for
the subgroup (`is_in_correct_subgroup_assuming_on_curve`). The elements of the derived formats at
src/data_structures.rs:128-135, src/generator.rs:35 and src/statement.rs:117-179. -/
structure SWCurve (B : Type) where
  a : B
  b : B
  sqrt : B → Option B
  le : B → B → Bool
  inSubgroup : Affine B → Bool

namespace SWCurve
variable {B : Type} [Field B] [DecidableEq B] (E : SWCurve B)

/-- The right-hand side of the equation of the curve. The elements of the derived formats at
src/data_structures.rs:128-135, src/generator.rs:35 and src/statement.rs:117-179. -/
def rhs (x : B) : B := x * x * x + E.a * x + E.b

/-- `Affine::is_on_curve`. The elements of the derived formats at src/data_structures.rs:128-135,
src/generator.rs:35 and src/statement.rs:117-179. -/
def onCurve (P : Affine B) : Bool := P.infinity || decide (P.y * P.y = E.rhs P.x)

/-- `Affine::get_ys_from_x_unchecked`: the smaller root first. The elements of the derived formats
at src/data_structures.rs:128-135, src/generator.rs:35 and src/statement.rs:117-179. -/
def ysFromX (x : B) : Option (B × B) := do
  let y ← E.sqrt (E.rhs x)
  if E.le (-y) y then some (-y, y) else some (y, -y)

/-- `Affine::to_flags`. The elements of the derived formats at src/data_structures.rs:128-135,
src/generator.rs:35 and src/statement.rs:117-179. -/
def toFlags (P : Affine B) : SWFlags :=
  if P.infinity then .PointAtInfinity else if E.le P.y (-P.y) then .YIsPositive else .YIsNegative

/-- `Valid::check` for points. The elements of the derived formats at
src/data_structures.rs:128-135, src/generator.rs:35 and src/statement.rs:117-179. -/
def check (P : Affine B) : Except SerErr Unit := if E.onCurve P && E.inSubgroup P then .ok () else .error .invalidData

/-- The first part of `SWCurveConfig::deserialize_with_mode`: coordinates and flags. The elements
of the derived formats at src/data_structures.rs:128-135, src/generator.rs:35 and
src/statement.rs:117-179. -/
def readCoords (c : FieldCodec B) (m : Compress) (v : Validate) (bs : Bytes) : Except SerErr ((B × B × SWFlags) × Bytes) :=
  match m with
  | .Yes => do
    let ((x, fl), bs) ← c.deFlags bs
    match fl with
    | .PointAtInfinity => pure ((0, 0, fl), bs)
    | _ => match E.ysFromX x with
      | none => .error .invalidData
      | some (y, negY) => pure ((x, if fl = .YIsPositive then y else negY, fl), bs)
  | .No => do
    let (x, bs) ← c.plain.de .No v bs
    let ((y, fl), bs) ← c.deFlags bs
    pure ((x, y, fl), bs)

/-- `Affine`, with the methods of `SWCurveConfig`. The elements of the derived formats at
src/data_structures.rs:128-135, src/generator.rs:35 and src/statement.rs:117-179. -/
def codec (c : FieldCodec B) : Codec (Affine B) where
  ser m P :=
    let (x, y, fl) := if P.infinity then (0, 0, SWFlags.PointAtInfinity) else (P.x, P.y, E.toFlags P)
    match m with
    | .Yes => c.serFlags x fl
    | .No => c.plain.ser .No x ++ c.serFlags y fl
  size m _ := match m with
    | .Yes => c.sizeFlags 0
    | .No => c.plain.size .Yes 0 + c.sizeFlags 0
  de m v bs := do
    let ((x, y, fl), bs) ← E.readCoords c m v bs
    if fl = .PointAtInfinity then pure (Affine.identity, bs)
    else
      match v with
      | .Yes => do
        E.check ⟨x, y, false⟩
        pure (⟨x, y, false⟩, bs)
      | .No => pure (⟨x, y, false⟩, bs)
  check := E.check
  batchCheck := loopCheck E.check

end SWCurve

/-- `Valid::check` for `PairingOutput`. The elements of the derived formats at
src/data_structures.rs:128-135, src/generator.rs:35 and src/statement.rs:117-179. -/
def outputCheck {T : Type} (inGroup : T → Bool) (f : T) : Except SerErr Unit := if inGroup f then .ok () else .error .invalidData

/-- `PairingOutput`: an element of the target field, and a test whether it is in the target group.
The elements of the derived formats at src/data_structures.rs:128-135, src/generator.rs:35 and
src/statement.rs:117-179. -/
def outputCodec {T : Type} (c : Codec T) (inGroup : T → Bool) : Codec T where
  ser := c.ser
  size := c.size
  de m v bs := do
    let (f, bs) ← c.de m .No bs
    match v with
    | .Yes => do
      outputCheck inGroup f
      pure (f, bs)
    | .No => pure (f, bs)
  check := outputCheck inGroup
  batchCheck := loopCheck (outputCheck inGroup)

/-- The codec for some of the values only; reading another one is an error. Not a function of the code: with this, the results that need
lawful codecs apply to the real ones, see `C110_only`. The elements of the derived formats at
src/data_structures.rs:128-135, src/generator.rs:35 and src/statement.rs:117-179. -/
def Codec.only {α : Type} (c : Codec α) (p : α → Bool) : Codec {x // p x = true} where
  ser m x := c.ser m x.1
  size m x := c.size m x.1
  de m v bs := do
    let (x, rest) ← c.de m v bs
    if h : p x = true then pure (⟨x, h⟩, rest) else .error .invalidData
  check x := c.check x.1
  batchCheck l := c.batchCheck (l.map (·.1))

end GS
