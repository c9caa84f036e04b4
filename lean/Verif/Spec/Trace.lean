import Verif.Model.Trace

/-!
# Executions that do the same operations, sizes, prices

Vocabulary for what can be observed of a call besides its result: which operations it executes, in which order.
-/

namespace GS

/-- The two calls execute the same operations in the same order, and end the same way: both return, or both with the same panic. -/
def SameRun {α β : Type} (a : Tr α) (b : Tr β) : Prop := a.ops = b.ops ∧ ∀ p, a.res = .error p ↔ b.res = .error p

/-- As many rows, and the `i`-th rows are equally long. -/
def SameShape {α β : Type} (M : Matrix α) (N : Matrix β) : Prop := M.map List.length = N.map List.length

/-- Commitments to as many values with randomness of the same shape. -/
def Commit.SameSizes {F G F' G' : Type} (c : Commit F G) (d : Commit F' G') : Prop :=
  c.coms.length = d.coms.length ∧ SameShape c.rand d.rand

/-- CRSs with as many key elements. -/
def CRS.SameSizes {G1 G2 GT G1' G2' GT' : Type} (c : CRS G1 G2 GT) (d : CRS G1' G2' GT') : Prop :=
  c.u.length = d.u.length ∧ c.v.length = d.v.length

/-- Equations of the same dimensions. -/
def PPE.SameSizes {F G1 G2 GT F' G1' G2' GT' : Type} (s : PPE F G1 G2 GT) (t : PPE F' G1' G2' GT') : Prop :=
  s.a_consts.length = t.a_consts.length ∧ s.b_consts.length = t.b_consts.length ∧ SameShape s.gamma t.gamma

/-- Equations of the same dimensions. -/
def MSMEG1.SameSizes {F G1 F' G1' : Type} (s : MSMEG1 F G1) (t : MSMEG1 F' G1') : Prop :=
  s.a_consts.length = t.a_consts.length ∧ s.b_consts.length = t.b_consts.length ∧ SameShape s.gamma t.gamma

/-- Equations of the same dimensions. -/
def MSMEG2.SameSizes {F G2 F' G2' : Type} (s : MSMEG2 F G2) (t : MSMEG2 F' G2') : Prop :=
  s.a_consts.length = t.a_consts.length ∧ s.b_consts.length = t.b_consts.length ∧ SameShape s.gamma t.gamma

/-- Equations of the same dimensions. -/
def QuadEqu.SameSizes {F F' : Type} (s : QuadEqu F) (t : QuadEqu F') : Prop :=
  s.a_consts.length = t.a_consts.length ∧ s.b_consts.length = t.b_consts.length ∧ SameShape s.gamma t.gamma

/-- Messages of the same sizes: as many commitments, and proofs with as many elements, labelled with the same kinds of equation. -/
def CProof.SameSizes {F G1 G2 F' G1' G2' : Type} (p : CProof F G1 G2) (q : CProof F' G1' G2') : Prop :=
  p.xcoms.coms.length = q.xcoms.coms.length ∧ p.ycoms.coms.length = q.ycoms.coms.length ∧
    p.equ_proofs.map (fun f => (f.pi.length, f.theta.length, f.equ_type)) =
      q.equ_proofs.map fun f => (f.pi.length, f.theta.length, f.equ_type)

/-- As `SameRun`, but the executions may differ in how many target group elements they compare. -/
def SameButCompare {α β : Type} (a : Tr α) (b : Tr β) : Prop :=
  a.ops.filter (· ≠ .eq .GT) = b.ops.filter (· ≠ .eq .GT) ∧ ∀ p, a.res = .error p ↔ b.res = .error p

/-- What a call costs if the operation `o` costs `w o`. -/
def price {α : Type} (w : Op → Nat) (t : Tr α) : Nat := (t.ops.map w).sum

/-- Counts the pairs fed to the pairing. -/
def pairs : Op → Nat
  | .pairing n => n
  | _ => 0

end GS
