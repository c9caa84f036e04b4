import Verif.Lemmas.Target
import Verif.Spec.Bls381
import Verif.Spec.AnyCrs

/-!
# The target group of BLS12-381, and statements that are read from bytes

A verifier may be given the CRS and the equation as bytes, as it is given the proof.
-/

open Polynomial

namespace GS

instance fq6_irreducible : Fact (Irreducible (X ^ 3 - C (xiFq6 (ZMod p381)))) := ⟨xi_irreducible (ZMod.card p381)⟩

instance fq12_no_root : Fact (∀ b : Fq6 (ZMod p381), b ^ 2 ≠ xiFq12 (ZMod p381) + 0 * b) := ⟨v_no_square (ZMod.card p381)⟩

/-- The elements of the target field whose power with `r` is 1, written additively. -/
abbrev Gt (K : Type) [Field K] := Additive (rootsOfUnity r381 (Fq12 K))

/-- Scalars act on them by powers. -/
noncomputable instance (K : Type) [Field K] : Module (ZMod r381) (Gt K) :=
  AddCommGroup.zmodModule fun x => Additive.toMul.injective (Subtype.ext ((mem_rootsOfUnity _ _).mp (Additive.toMul x).2))

noncomputable instance (K : Type) [Field K] : DecidableEq (Gt K) := Classical.decEq _

/-- How an element of the target group is represented. -/
def gtRep {K : Type} [Field K] (x : Gt K) : Fq12 K := ((Additive.toMul x).1 : Fq12 K)

/-- Elements of the target field: twelve elements of the prime field. -/
noncomputable def blsFq12 : FieldCodec (Fq12 (ZMod p381)) :=
  quadCodec (cubicCodec (quadCodec (fpCodec p381 48 48) (fun a => (⟨a.1, a.2⟩ : Fq2 (ZMod p381))) (fun z => (z.re, z.im))) mkFq6 fq6Equiv.symm)
    (fun a => ⟨a.1, a.2⟩) (fun z => (z.re, z.im))

/-- `PairingOutput`. -/
noncomputable def blsGt : Codec (Fq12 (ZMod p381)) := outputCodec blsFq12.plain (inGt r381)

variable {F H1 H2 GT R1 R2 RT : Type}

/-- A CRS whose elements are represented. -/
def CRS.rep (j1 : H1 → R1) (j2 : H2 → R2) (jT : GT → RT) (crs : CRS H1 H2 GT) : CRS R1 R2 RT :=
  ⟨crs.u.map (Com.on j1), crs.v.map (Com.on j2), j1 crs.g1_gen, j2 crs.g2_gen, jT crs.gt_gen⟩

@[inherit_doc CRS.rep]
def PPE.rep (j1 : H1 → R1) (j2 : H2 → R2) (jT : GT → RT) (equ : PPE F H1 H2 GT) : PPE F R1 R2 RT :=
  ⟨equ.a_consts.map j1, equ.b_consts.map j2, equ.gamma, jT equ.target⟩

@[inherit_doc CRS.rep]
def OneEqu.rep (j1 : H1 → R1) (j2 : H2 → R2) (jT : GT → RT) : OneEqu F H1 H2 GT → OneEqu F R1 R2 RT
  | .ppe equ => .ppe (equ.rep j1 j2 jT)
  | .msmeg1 equ => .msmeg1 (equ.on j1)
  | .msmeg2 equ => .msmeg2 (equ.on j2)
  | .quad equ => .quad equ

/-- The kind of an equation. -/
def OneEqu.kind : OneEqu F H1 H2 GT → EquType
  | .ppe _ => .PairingProduct
  | .msmeg1 _ => .MultiScalarG1
  | .msmeg2 _ => .MultiScalarG2
  | .quad _ => .Quadratic

/-- The lengths of its vectors fit in a `u64`. -/
def OneEqu.Fits : OneEqu F H1 H2 GT → Prop
  | .ppe equ => equ.Fits
  | .msmeg1 equ => equ.Fits
  | .msmeg2 equ => equ.Fits
  | .quad equ => equ.Fits

/-- The bytes of an equation, as its own type is serialized. -/
def OneEqu.ser (cF : Codec F) (c1 : Codec H1) (c2 : Codec H2) (cT : Codec GT) (m : Compress) : OneEqu F H1 H2 GT → Bytes
  | .ppe equ => (PPE.codec cF c1 c2 cT).ser m equ
  | .msmeg1 equ => (MSMEG1.codec cF c1).ser m equ
  | .msmeg2 equ => (MSMEG2.codec cF c2).ser m equ
  | .quad equ => (QuadEqu.codec cF).ser m equ

/-- It passes `check`. -/
def OneEqu.Valid (cF : Codec F) (c1 : Codec H1) (c2 : Codec H2) (cT : Codec GT) : OneEqu F H1 H2 GT → Prop
  | .ppe equ => (PPE.codec cF c1 c2 cT).Valid equ
  | .msmeg1 equ => (MSMEG1.codec cF c1).Valid equ
  | .msmeg2 equ => (MSMEG2.codec cF c2).Valid equ
  | .quad equ => (QuadEqu.codec cF).Valid equ

/-- An equation of a kind that the reader knows. -/
def OneEqu.de (cF : Codec F) (c1 : Codec H1) (c2 : Codec H2) (cT : Codec GT) (k : EquType) (m : Compress) (v : Validate) (bs : Bytes) :
    Except SerErr (OneEqu F H1 H2 GT × Bytes) :=
  match k with
  | .PairingProduct => do
    let (x, rest) ← (PPE.codec cF c1 c2 cT).de m v bs
    pure (.ppe x, rest)
  | .MultiScalarG1 => do
    let (x, rest) ← (MSMEG1.codec cF c1).de m v bs
    pure (.msmeg1 x, rest)
  | .MultiScalarG2 => do
    let (x, rest) ← (MSMEG2.codec cF c2).de m v bs
    pure (.msmeg2 x, rest)
  | .Quadratic => do
    let (x, rest) ← (QuadEqu.codec cF).de m v bs
    pure (.quad x, rest)

/-- A verifier that is given the CRS, the equation and the proof as bytes. It knows the kind of the equation. -/
def receiveAll {α : Type} (cF : Codec F) (c1 : Codec R1) (c2 : Codec R2) (cT : Codec RT) (k : EquType) (m : Compress) (v : Validate) (bsC bsE bsP : Bytes)
    (verify : CRS R1 R2 RT → OneEqu F R1 R2 RT → CProof F R1 R2 → α) : Except SerErr α := do
  let (crs, _) ← (CRS.codec c1 c2 cT).de m v bsC
  let (equ, _) ← OneEqu.de cF c1 c2 cT k m v bsE
  let (cp, _) ← (CProof.codec cF c1 c2).de m v bsP
  pure (verify crs equ cp)

section
variable [Field F] [AddCommGroup H1] [Module F H1] [AddCommGroup H2] [Module F H2] [AddCommGroup GT] [Module F GT]

/-- Both keys of the CRS bind, for the values of this equation. -/
def OneEqu.Binding (crs : CRS H1 H2 GT) : OneEqu F H1 H2 GT → Prop
  | .ppe _ => BindingGroup F crs.u ∧ BindingGroup F crs.v
  | .msmeg1 _ => BindingGroup F crs.u ∧ BindingScalar F crs.v crs.g2_gen
  | .msmeg2 _ => BindingScalar F crs.u crs.g1_gen ∧ BindingGroup F crs.v
  | .quad _ => BindingScalar F crs.u crs.g1_gen ∧ BindingScalar F crs.v crs.g2_gen

/-- There are values that satisfy the equation, one for each commitment of the message, and no commitment can be opened to another one. -/
def OneEqu.Extracted (e : H1 →ₗ[F] H2 →ₗ[F] GT) (crs : CRS H1 H2 GT) (cp : CProof F H1 H2) : OneEqu F H1 H2 GT → Prop
  | .ppe equ => ∃ x y, OnlyGroup F crs.u cp.xcoms.coms x ∧ OnlyGroup F crs.v cp.ycoms.coms y ∧ equ.Holds e x y
  | .msmeg1 equ => ∃ x y, OnlyGroup F crs.u cp.xcoms.coms x ∧ OnlyScalar crs.v crs.g2_gen cp.ycoms.coms y ∧ equ.Holds x y
  | .msmeg2 equ => ∃ x y, OnlyScalar crs.u crs.g1_gen cp.xcoms.coms x ∧ OnlyGroup F crs.v cp.ycoms.coms y ∧ equ.Holds x y
  | .quad equ => ∃ x y, OnlyScalar crs.u crs.g1_gen cp.xcoms.coms x ∧ OnlyScalar crs.v crs.g2_gen cp.ycoms.coms y ∧ equ.Holds x y

end

end GS
