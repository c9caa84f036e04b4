import Verif.Spec.Joint
import Verif.Spec.Target
import Verif.Model.RawProve
import Verif.Model.Message

/-!
# Statements of several equations, from values to bytes and back

The program of `Verif/Spec/Joint.lean` on points in coordinates, what it sends, and a receiver. What is sent is two messages of the library (`CProof`), one after the other,
with all recorded randomness left out (C44 and C64 say why): first the commitments to group elements and all proofs, then the commitments to scalars and no proof.
-/

open scoped BigOperators

namespace GS
variable {F R1 R2 RT H1 H2 GT : Type}

@[inherit_doc CRS.rep]
def AnyEqu.rep (j1 : H1 → R1) (j2 : H2 → R2) (jT : GT → RT) : AnyEqu F H1 H2 GT → AnyEqu F R1 R2 RT
  | .ppe q => .ppe (q.rep j1 j2 jT)
  | .msmeg1 q => .msmeg1 (q.on j1)
  | .msmeg2 q => .msmeg2 (q.on j2)
  | .quad q => .quad q

@[inherit_doc CRS.rep]
def Vars.rep (j1 : H1 → R1) (j2 : H2 → R2) (w : Vars F H1 H2) : Vars F R1 R2 := ⟨w.X.map j1, w.x, w.Y.map j2, w.y⟩

@[inherit_doc CRS.rep]
def VarComs.rep (j1 : H1 → R1) (j2 : H2 → R2) (c : VarComs F H1 H2) : VarComs F R1 R2 := ⟨c.X.on j1, c.x.on j1, c.Y.on j2, c.y.on j2⟩

/-- What is returned by a program about statements, represented. -/
def repStatement (j1 : H1 → R1) (j2 : H2 → R2) (r : VarComs F H1 H2 × List (EquProof F H1 H2)) : VarComs F R1 R2 × List (EquProof F R1 R2) :=
  (r.1.rep j1 j2, r.2.map (EquProof.on j1 j2))

/-- The same equation, as the verifier of one equation takes it. -/
def AnyEqu.one : AnyEqu F H1 H2 GT → OneEqu F H1 H2 GT
  | .ppe q => .ppe q
  | .msmeg1 q => .msmeg1 q
  | .msmeg2 q => .msmeg2 q
  | .quad q => .quad q

section programs
variable [Field F] [Add R1] [Neg R1] [Zero R1] [SMul F R1] [Add R2] [Neg R2] [Zero R2] [SMul F R2] {ρ : Type} [Rng ρ F R1 R2]

/-- `Vars.commit` on points in coordinates. -/
def Vars.commitRaw (w : Vars F R1 R2) (crs : CRS R1 R2 RT) (rng : ρ) : Res (VarComs F R1 R2 × ρ) := do
  let (cX, rng) ← commitUnlessEmpty (fun xs rng => Raw.batchCommitG1 xs crs rng) w.X rng
  let (cx, rng) ← commitUnlessEmpty (fun xs rng => Raw.batchCommitScalarToB1 xs crs rng) w.x rng
  let (cY, rng) ← commitUnlessEmpty (fun xs rng => Raw.batchCommitG2 xs crs rng) w.Y rng
  let (cy, rng) ← commitUnlessEmpty (fun xs rng => Raw.batchCommitScalarToB2 xs crs rng) w.y rng
  pure (⟨cX, cx, cY, cy⟩, rng)

/-- `AnyEqu.prove` on points in coordinates. -/
def AnyEqu.proveRaw (q : AnyEqu F R1 R2 RT) (sch : Nat → Scheduler) (w : Vars F R1 R2) (c : VarComs F R1 R2) (crs : CRS R1 R2 RT) (rng : ρ) :
    Res (EquProof F R1 R2 × ρ) :=
  match q with
  | .ppe q => q.proveRaw sch w.X w.Y c.X c.Y crs rng
  | .msmeg1 q => q.proveRaw sch w.X w.y c.X c.y crs rng
  | .msmeg2 q => q.proveRaw sch w.x w.Y c.x c.Y crs rng
  | .quad q => q.proveRaw sch w.x w.y c.x c.y crs rng

/-- `proveStatement` on points in coordinates. -/
def proveStatementRaw (sch : Nat → Nat → Scheduler) (qs : List (AnyEqu F R1 R2 RT)) (w : Vars F R1 R2) (crs : CRS R1 R2 RT) (rng : ρ) :
    Res ((VarComs F R1 R2 × List (EquProof F R1 R2)) × ρ) := do
  let (c, rng) ← w.commitRaw crs rng
  let (pfs, rng) ← proveAll (fun (q : AnyEqu F R1 R2 RT × Nat) rng => q.1.proveRaw (sch q.2) w c crs rng) qs.zipIdx rng
  pure ((c, pfs), rng)

end programs

/-- The commitment without the recorded randomness. -/
def Commit.bare (c : Commit F H1) : Commit F H1 := ⟨c.coms, []⟩

/-- The proof without the recorded randomness. -/
def EquProof.bare (pf : EquProof F H1 H2) : EquProof F H1 H2 := ⟨pf.pi, pf.theta, pf.equ_type, []⟩

/-- The two messages that are sent. -/
def sentMessages (r : VarComs F H1 H2 × List (EquProof F H1 H2)) : CProof F H1 H2 × CProof F H1 H2 :=
  (⟨r.1.X.bare, r.1.Y.bare, r.2.map EquProof.bare⟩, ⟨r.1.x.bare, r.1.y.bare, []⟩)

/-- Their bytes. -/
def sendStatement (cF : Codec F) (c1 : Codec H1) (c2 : Codec H2) (m : Compress) (r : VarComs F H1 H2 × List (EquProof F H1 H2)) : Bytes :=
  (CProof.codec cF c1 c2).ser m (sentMessages r).1 ++ (CProof.codec cF c1 c2).ser m (sentMessages r).2

/-- The message about one equation, put together from the two messages and a proof. -/
def AnyEqu.message (q : AnyEqu F R1 R2 RT) (a b : CProof F H1 H2) (pf : EquProof F H1 H2) : CProof F H1 H2 :=
  match q with
  | .ppe _ => ⟨a.xcoms, a.ycoms, [pf]⟩
  | .msmeg1 _ => ⟨a.xcoms, b.ycoms, [pf]⟩
  | .msmeg2 _ => ⟨b.xcoms, a.ycoms, [pf]⟩
  | .quad _ => ⟨b.xcoms, b.ycoms, [pf]⟩

/-- Verify the equations one after the other, as long as the answer is true. There has to be a proof for each. -/
def verifyStatement {ε : Type} (verify : AnyEqu F R1 R2 RT → CProof F R1 R2 → Except ε Bool) (a b : CProof F R1 R2) :
    List (AnyEqu F R1 R2 RT) → List (EquProof F R1 R2) → Except ε Bool
  | [], [] => pure true
  | q :: qs, pf :: pfs => do
    if ← verify q (q.message a b pf) then verifyStatement verify a b qs pfs else pure false
  | _, _ => pure false

/-- Read the two messages and verify. -/
def receiveStatement {ε : Type} (cF : Codec F) (c1 : Codec R1) (c2 : Codec R2) (m : Compress) (v : Validate)
    (verify : AnyEqu F R1 R2 RT → CProof F R1 R2 → Except ε Bool) (qs : List (AnyEqu F R1 R2 RT)) (bs : Bytes) : Except SerErr (Except ε Bool) := do
  let (a, bs) ← (CProof.codec cF c1 c2).de m v bs
  let (b, _) ← (CProof.codec cF c1 c2).de m v bs
  pure (verifyStatement verify a b qs a.equ_proofs)

/-- Average of a distinguisher over the bytes sent by `run` with uniform tape. -/
noncomputable def sentGame [Fintype F] (cF : Codec F) (c1 : Codec R1) (c2 : Codec R2) (m : Compress) {N : Nat}
    (run : List F → Res ((VarComs F R1 R2 × List (EquProof F R1 R2)) × List F)) (D : Res Bytes → ℝ) : ℝ :=
  𝔼 t : Fin N → F, D ((run (List.ofFn t)).map fun r => sendStatement cF c1 c2 m r.1)

section opened
variable [Field F] [AddCommGroup H1] [Module F H1] [AddCommGroup H2] [Module F H2]

/-- The commitments of the two messages open to these values, and to no others. -/
def Vars.OpenedBy (w : Vars F H1 H2) (crs : CRS H1 H2 GT) (a b : CProof F H1 H2) : Prop :=
  List.Forall₂ (fun c x => ∀ x', CanOpenGroup F crs.u c x' ↔ x' = x) a.xcoms.coms w.X ∧
  List.Forall₂ (fun c x => ∀ x', CanOpenScalar crs.u crs.g1_gen c x' ↔ x' = x) b.xcoms.coms w.x ∧
  List.Forall₂ (fun c x => ∀ x', CanOpenGroup F crs.v c x' ↔ x' = x) a.ycoms.coms w.Y ∧
  List.Forall₂ (fun c x => ∀ x', CanOpenScalar crs.v crs.g2_gen c x' ↔ x' = x) b.ycoms.coms w.y

end opened

end GS
