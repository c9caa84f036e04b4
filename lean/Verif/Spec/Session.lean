import Verif.Spec.Joint
import Verif.Spec.Serialize
import Verif.Spec.Domain
import Verif.Model.Unwind

/-!
# Whole programs using the API, and the ledger that they behave like

First, arbitrary client programs. Such a program owns a generator, variables that hold commitments (of the left and of the
right kind) and variables that hold vectors of proofs. It calls the functions of the library in any order, catches panics, moves
values around, writes them out and reads them back, and receives proofs from elsewhere. Two programs that differ in what they do
after seeing an outcome are two lists of calls; a theorem for all lists covers them all.

Then the ledger: what somebody who watches the calls writes down. It has no cryptography in it: under every variable are the
values that were committed to, each with a serial number, and under every proof what it was made for.
-/

namespace GS
variable {F G1 G2 GT ρ : Type} [Field F] [AddCommGroup G1] [Module F G1] [AddCommGroup G2] [Module F G2]
  [AddCommGroup GT] [Module F GT]

/-! ### Calls -/

/-- A value to commit to: a group element or a scalar. -/
inductive Val (F G : Type) where
  | group (x : G)
  | scalar (x : F)

/-- The argument of a batch function: group elements or scalars. -/
inductive Batch (F G : Type) where
  | group (xs : List G)
  | scalar (xs : List F)

/-- The values in a batch. -/
def Batch.vals {G : Type} : Batch F G → List (Val F G)
  | .group xs => xs.map .group
  | .scalar xs => xs.map .scalar

/-- An equation together with values for its variables: what a prover passes to `prove`. -/
inductive Claim (F G1 G2 GT : Type) where
  | ppe (q : PPE F G1 G2 GT) (x : List G1) (y : List G2)
  | msmeg1 (q : MSMEG1 F G1) (x : List G1) (y : List F)
  | msmeg2 (q : MSMEG2 F G2) (x : List F) (y : List G2)
  | quad (q : QuadEqu F) (x : List F) (y : List F)

namespace Claim

/-- The equation. -/
def equ : Claim F G1 G2 GT → AnyEqu F G1 G2 GT
  | ppe q _ _ => .ppe q
  | msmeg1 q _ _ => .msmeg1 q
  | msmeg2 q _ _ => .msmeg2 q
  | quad q _ _ => .quad q

/-- The values of the variables on the left. -/
def xs : Claim F G1 G2 GT → Batch F G1
  | ppe _ x _ => .group x
  | msmeg1 _ x _ => .group x
  | msmeg2 _ x _ => .scalar x
  | quad _ x _ => .scalar x

/-- The values of the variables on the right. -/
def ys : Claim F G1 G2 GT → Batch F G2
  | ppe _ _ y => .group y
  | msmeg1 _ _ y => .scalar y
  | msmeg2 _ _ y => .group y
  | quad _ _ y => .scalar y

end Claim

/-- One call by the program. Variables are numbered. -/
inductive ApiCall (F G1 G2 GT : Type) where
  /-- `left[i] = commit_G1(v, crs, rng)` or `commit_scalar_to_B1(v, crs, rng)` -/
  | commitL (i : Nat) (v : Val F G1)
  /-- `right[i] = commit_G2(v, crs, rng)` or `commit_scalar_to_B2(v, crs, rng)` -/
  | commitR (i : Nat) (v : Val F G2)
  /-- `left[i] = batch_commit_G1(b, crs, rng)` or `batch_commit_scalar_to_B1(b, crs, rng)` -/
  | batchL (i : Nat) (b : Batch F G1)
  /-- `right[i] = batch_commit_G2(b, crs, rng)` or `batch_commit_scalar_to_B2(b, crs, rng)` -/
  | batchR (i : Nat) (b : Batch F G2)
  /-- `left[i].append(&mut left[j])`; for `i = j`, which does not compile, nothing -/
  | appendL (i j : Nat)
  /-- `right[i].append(&mut right[j])`; for `i = j`, which does not compile, nothing -/
  | appendR (i j : Nat)
  /-- `left[i] = left[j].clone()` -/
  | cloneL (i j : Nat)
  /-- `right[i] = right[j].clone()` -/
  | cloneR (i j : Nat)
  /-- write `left[i]` to bytes and read it back -/
  | reloadL (i : Nat) (m : Compress) (v : Validate)
  /-- write `right[i]` to bytes and read it back -/
  | reloadR (i : Nat) (m : Compress) (v : Validate)
  /-- write the proofs in `proofs[k]` to bytes, one by one, and read them back -/
  | reloadP (k : Nat) (m : Compress) (v : Validate)
  /-- `proofs[k] = vec![equ.prove(x, y, &left[i], &right[j], crs, rng)]` -/
  | prove (k i j : Nat) (c : Claim F G1 G2 GT) (sch : Nat → Scheduler)
  /-- `CProof { xcoms: left[i], ycoms: right[j], equ_proofs: proofs[k] } = equ.commit_and_prove(x, y, crs, rng)` -/
  | commitAndProve (k i j : Nat) (c : Claim F G1 G2 GT) (sch : Nat → Scheduler)
  /-- `proofs[k]` is set to anything at all, for example what somebody else sent -/
  | receive (k : Nat) (pfs : List (EquProof F G1 G2))
  /-- `equ.verify(&CProof { xcoms: left[i], ycoms: right[j], equ_proofs: proofs[k] }, crs)` -/
  | verify (k i j : Nat) (q : AnyEqu F G1 G2 GT) (sch : Scheduler)

/-- What the program sees of a call. -/
inductive ApiOutcome where
  | done
  | panicked
  | unreadable
  | verdict (b : Bool)
  deriving DecidableEq

/-! ### The program running -/

/-- The variables of the program. -/
structure Store (ρ F G1 G2 : Type) where
  rng : ρ
  left : Nat → Commit F G1
  right : Nat → Commit F G2
  proofs : Nat → List (EquProof F G1 G2)

/-- `f` with `a` at `i`. -/
def setAt {α : Type} (f : Nat → α) (i : Nat) (a : α) : Nat → α := fun j => if j = i then a else f j

/-- At the start nothing has been committed to and nothing has been proved. -/
def Store.init (rng : ρ) : Store ρ F G1 G2 := ⟨rng, fun _ => ⟨[], []⟩, fun _ => ⟨[], []⟩, fun _ => []⟩

/-- The codecs of scalars and of elements of the two groups. -/
structure Codecs (F G1 G2 : Type) where
  f : Codec F
  g1 : Codec G1
  g2 : Codec G2

/-- The codecs keep their laws, and every value of the types is valid (points on the curve and in the subgroup, as Rust values of
these types are unless built with unchecked constructors). -/
structure Codecs.Lawful (c : Codecs F G1 G2) : Prop where
  f : c.f.Lawful
  g1 : c.g1.Lawful
  g2 : c.g2.Lawful
  validF : ∀ a, c.f.Valid a
  valid1 : ∀ a, c.g1.Valid a
  valid2 : ∀ a, c.g2.Valid a

/-- Write and read back. -/
def Codec.reload {α : Type} (c : Codec α) (m : Compress) (v : Validate) (x : α) : Except SerErr α :=
  (c.de m v (c.ser m x)).map (·.1)

/-- Write and read back each entry. -/
def Codec.reloadAll {α : Type} (c : Codec α) (m : Compress) (v : Validate) : List α → Except SerErr (List α)
  | [] => .ok []
  | x :: l => do
    let x ← c.reload m v x
    let l ← c.reloadAll m v l
    pure (x :: l)

section running
variable [Rng ρ F G1 G2]

/-- The call for a value on the left. -/
def Val.commitL (v : Val F G1) (crs : CRS G1 G2 GT) : Unw ρ (Commit F G1) :=
  match v with
  | .group x => commitG1U x crs
  | .scalar x => commitScalarToB1U x crs

/-- The call for a value on the right. -/
def Val.commitR (v : Val F G2) (crs : CRS G1 G2 GT) : Unw ρ (Commit F G2) :=
  match v with
  | .group x => commitG2U x crs
  | .scalar x => commitScalarToB2U x crs

/-- The call for a batch on the left. -/
def Batch.commitL (b : Batch F G1) (crs : CRS G1 G2 GT) : Unw ρ (Commit F G1) :=
  match b with
  | .group xs => batchCommitG1U xs crs
  | .scalar xs => batchCommitScalarToB1U xs crs

/-- The call for a batch on the right. -/
def Batch.commitR (b : Batch F G2) (crs : CRS G1 G2 GT) : Unw ρ (Commit F G2) :=
  match b with
  | .group xs => batchCommitG2U xs crs
  | .scalar xs => batchCommitScalarToB2U xs crs

/-- The call of `prove`. -/
def Claim.prove (c : Claim F G1 G2 GT) (sch : Nat → Scheduler) (cx : Commit F G1) (cy : Commit F G2) (crs : CRS G1 G2 GT) :
    Unw ρ (EquProof F G1 G2) :=
  match c with
  | .ppe q x y => q.proveU sch x y cx cy crs
  | .msmeg1 q x y => q.proveU sch x y cx cy crs
  | .msmeg2 q x y => q.proveU sch x y cx cy crs
  | .quad q x y => q.proveU sch x y cx cy crs

/-- The call of `commit_and_prove`. -/
def Claim.commitAndProve (c : Claim F G1 G2 GT) (sch : Nat → Scheduler) (crs : CRS G1 G2 GT) : Unw ρ (CProof F G1 G2) :=
  match c with
  | .ppe q x y => q.commitAndProveU sch x y crs
  | .msmeg1 q x y => q.commitAndProveU sch x y crs
  | .msmeg2 q x y => q.commitAndProveU sch x y crs
  | .quad q x y => q.commitAndProveU sch x y crs

/-- The call of `verify`. -/
def AnyEqu.check (e : G1 →ₗ[F] G2 →ₗ[F] GT) (q : AnyEqu F G1 G2 GT) (sch : Scheduler) (cp : CProof F G1 G2)
    (crs : CRS G1 G2 GT) [DecidableEq GT] : Res Bool :=
  match q with
  | .ppe q => q.verify e sch cp crs
  | .msmeg1 q => q.verify e sch cp crs
  | .msmeg2 q => q.verify e sch cp crs
  | .quad q => q.verify e sch cp crs

/-- Perform one call. A call that panics assigns nothing; the generator is what the call left behind (`Verif/Model/Unwind.lean`). -/
def Store.step (e : G1 →ₗ[F] G2 →ₗ[F] GT) (crs : CRS G1 G2 GT) (cd : Codecs F G1 G2) [DecidableEq GT] (s : Store ρ F G1 G2) :
    ApiCall F G1 G2 GT → ApiOutcome × Store ρ F G1 G2
  | .commitL i v =>
    match (v.commitL crs).run s.rng with
    | (.ok c, rng) => (.done, { s with rng, left := setAt s.left i c })
    | (.error _, rng) => (.panicked, { s with rng })
  | .commitR i v =>
    match (v.commitR crs).run s.rng with
    | (.ok c, rng) => (.done, { s with rng, right := setAt s.right i c })
    | (.error _, rng) => (.panicked, { s with rng })
  | .batchL i b =>
    match (b.commitL crs).run s.rng with
    | (.ok c, rng) => (.done, { s with rng, left := setAt s.left i c })
    | (.error _, rng) => (.panicked, { s with rng })
  | .batchR i b =>
    match (b.commitR crs).run s.rng with
    | (.ok c, rng) => (.done, { s with rng, right := setAt s.right i c })
    | (.error _, rng) => (.panicked, { s with rng })
  | .appendL i j =>
    if i = j then (.done, s) else
    match Commit.appendU.run (s.left i, s.left j) with
    | (.ok _, a, b) => (.done, { s with left := setAt (setAt s.left i a) j b })
    | (.error _, a, b) => (.panicked, { s with left := setAt (setAt s.left i a) j b })
  | .appendR i j =>
    if i = j then (.done, s) else
    match Commit.appendU.run (s.right i, s.right j) with
    | (.ok _, a, b) => (.done, { s with right := setAt (setAt s.right i a) j b })
    | (.error _, a, b) => (.panicked, { s with right := setAt (setAt s.right i a) j b })
  | .cloneL i j => (.done, { s with left := setAt s.left i (s.left j) })
  | .cloneR i j => (.done, { s with right := setAt s.right i (s.right j) })
  | .reloadL i m v =>
    match (Commit.codec cd.f cd.g1).reload m v (s.left i) with
    | .ok c => (.done, { s with left := setAt s.left i c })
    | .error _ => (.unreadable, s)
  | .reloadR i m v =>
    match (Commit.codec cd.f cd.g2).reload m v (s.right i) with
    | .ok c => (.done, { s with right := setAt s.right i c })
    | .error _ => (.unreadable, s)
  | .reloadP k m v =>
    match (EquProof.codec cd.f cd.g1 cd.g2).reloadAll m v (s.proofs k) with
    | .ok c => (.done, { s with proofs := setAt s.proofs k c })
    | .error _ => (.unreadable, s)
  | .prove k i j c sch =>
    match (c.prove sch (s.left i) (s.right j) crs).run s.rng with
    | (.ok pf, rng) => (.done, { s with rng, proofs := setAt s.proofs k [pf] })
    | (.error _, rng) => (.panicked, { s with rng })
  | .commitAndProve k i j c sch =>
    match (c.commitAndProve sch crs).run s.rng with
    | (.ok cp, rng) => (.done, { rng, left := setAt s.left i cp.xcoms, right := setAt s.right j cp.ycoms,
                                 proofs := setAt s.proofs k cp.equ_proofs })
    | (.error _, rng) => (.panicked, { s with rng })
  | .receive k pfs => (.done, { s with proofs := setAt s.proofs k pfs })
  | .verify k i j q sch =>
    match q.check e sch ⟨s.left i, s.right j, s.proofs k⟩ crs with
    | .ok b => (.verdict b, s)
    | .error _ => (.panicked, s)

/-- The outcomes of a list of calls. -/
def Store.run (e : G1 →ₗ[F] G2 →ₗ[F] GT) (crs : CRS G1 G2 GT) (cd : Codecs F G1 G2) [DecidableEq GT] (s : Store ρ F G1 G2) :
    List (ApiCall F G1 G2 GT) → List ApiOutcome
  | [] => []
  | op :: ops => (s.step e crs cd op).1 :: ((s.step e crs cd op).2.run e crs cd ops)

end running

/-! ### The ledger -/

/-- A committed value and its serial number. -/
structure Item (F G : Type) where
  id : Nat
  val : Val F G

/-- What is known about the contents of a proof variable. -/
inductive Origin (F G1 G2 GT : Type) where
  /-- it was received -/
  | received (pfs : List (EquProof F G1 G2))
  /-- it was made by `prove` for the claim, when the two variables with commitments held these items -/
  | made (c : Claim F G1 G2 GT) (xs : List (Item F G1)) (ys : List (Item F G2))

/-- The ledger; `next` is the next serial number. -/
structure Ledger (F G1 G2 GT : Type) where
  next : Nat
  left : Nat → List (Item F G1)
  right : Nat → List (Item F G2)
  proofs : Nat → Origin F G1 G2 GT

/-- The empty ledger. -/
def Ledger.init : Ledger F G1 G2 GT := ⟨0, fun _ => [], fun _ => [], fun _ => .received []⟩

/-- The values as items with new serial numbers. -/
def numbered {G : Type} : Nat → List (Val F G) → List (Item F G)
  | _, [] => []
  | n, v :: vs => ⟨n, v⟩ :: numbered (n + 1) vs

/-- A value is of the kind held by the batch. -/
def Batch.SameKind {G : Type} : Batch F G → Val F G → Prop
  | .group _, v => ∃ x, v = .group x
  | .scalar _, v => ∃ x, v = .scalar x

/-- `Gamma`, `A` and `B` of the equation have the right sizes for `m` variables on the left and `n` on the right. -/
def AnyEqu.Dims (q : AnyEqu F G1 G2 GT) (m n : Nat) : Prop :=
  match q with
  | .ppe q => q.Dims m n
  | .msmeg1 q => q.Dims m n
  | .msmeg2 q => q.Dims m n
  | .quad q => q.Dims m n

/-- There are variables on both sides, and the equation has the right sizes for them. -/
def Claim.WellFormed (c : Claim F G1 G2 GT) : Prop :=
  c.xs.vals ≠ [] ∧ c.ys.vals ≠ [] ∧ c.equ.Dims c.xs.vals.length c.ys.vals.length

/-- The items are as many as the values passed, and of the same kinds (their values are not looked at). -/
def Claim.Fits (c : Claim F G1 G2 GT) (xs : List (Item F G1)) (ys : List (Item F G2)) : Prop :=
  c.WellFormed ∧ (xs.length = c.xs.vals.length ∧ ∀ it ∈ xs, c.xs.SameKind it.val) ∧
    ys.length = c.ys.vals.length ∧ ∀ it ∈ ys, c.ys.SameKind it.val

open Classical in
/-- How a call changes the ledger. -/
noncomputable def Ledger.step (L : Ledger F G1 G2 GT) : ApiCall F G1 G2 GT → Ledger F G1 G2 GT
  | .commitL i v => { L with next := L.next + 1, left := setAt L.left i (numbered L.next [v]) }
  | .commitR i v => { L with next := L.next + 1, right := setAt L.right i (numbered L.next [v]) }
  | .batchL i b =>
    if b.vals = [] then L
    else { L with next := L.next + b.vals.length, left := setAt L.left i (numbered L.next b.vals) }
  | .batchR i b =>
    if b.vals = [] then L
    else { L with next := L.next + b.vals.length, right := setAt L.right i (numbered L.next b.vals) }
  | .appendL i j => if i = j then L else { L with left := setAt (setAt L.left i (L.left i ++ L.left j)) j [] }
  | .appendR i j => if i = j then L else { L with right := setAt (setAt L.right i (L.right i ++ L.right j)) j [] }
  | .cloneL i j => { L with left := setAt L.left i (L.left j) }
  | .cloneR i j => { L with right := setAt L.right i (L.right j) }
  | .reloadL _ _ _ => L
  | .reloadR _ _ _ => L
  | .reloadP _ _ _ => L
  | .prove k i j c _ =>
    if c.Fits (L.left i) (L.right j) then { L with proofs := setAt L.proofs k (.made c (L.left i) (L.right j)) } else L
  | .commitAndProve k i j c _ =>
    if c.WellFormed then
      let xs := numbered L.next c.xs.vals
      let ys := numbered (L.next + c.xs.vals.length) c.ys.vals
      { next := L.next + c.xs.vals.length + c.ys.vals.length, left := setAt L.left i xs, right := setAt L.right j ys,
        proofs := setAt L.proofs k (.made c xs ys) }
    else L
  | .receive k pfs => { L with proofs := setAt L.proofs k (.received pfs) }
  | .verify _ _ _ _ _ => L

/-! ### What the ledger says about outcomes -/

/-- The value as a group element; scalars stand for multiples of the generator. -/
def Val.asGroup {G : Type} [AddCommGroup G] [Module F G] (gen : G) : Val F G → G
  | .group x => x
  | .scalar x => x • gen

/-- The values as scalars: `s` are the scalars that they are multiples of the generator by. -/
def AsScalars {G : Type} [AddCommGroup G] [Module F G] (gen : G) (vs : List (Val F G)) (s : List F) : Prop :=
  vs.map (Val.asGroup gen) = s.map fun a => a • gen

/-- The committed values satisfy the equation. -/
def AnyEqu.SatBy (e : G1 →ₗ[F] G2 →ₗ[F] GT) (crs : CRS G1 G2 GT) (q : AnyEqu F G1 G2 GT) (xs : List (Val F G1))
    (ys : List (Val F G2)) : Prop :=
  match q with
  | .ppe q => q.Holds e (xs.map (Val.asGroup crs.g1_gen)) (ys.map (Val.asGroup crs.g2_gen))
  | .msmeg1 q => ∃ y, AsScalars crs.g2_gen ys y ∧ q.Holds (xs.map (Val.asGroup crs.g1_gen)) y
  | .msmeg2 q => ∃ x, AsScalars crs.g1_gen xs x ∧ q.Holds x (ys.map (Val.asGroup crs.g2_gen))
  | .quad q => ∃ x y, AsScalars crs.g1_gen xs x ∧ AsScalars crs.g2_gen ys y ∧ q.Holds x y

/-- The tag on proofs of the equation. -/
def AnyEqu.tag : AnyEqu F G1 G2 GT → EquType
  | .ppe _ => .PairingProduct
  | .msmeg1 _ => .MultiScalarG1
  | .msmeg2 _ => .MultiScalarG2
  | .quad _ => .Quadratic

/-- The tag and the numbers of entries of `pi` and `theta` that `prove` returns for the equation. -/
def AnyEqu.shape : AnyEqu F G1 G2 GT → EquType × Nat × Nat
  | .ppe _ => (.PairingProduct, 2, 2)
  | .msmeg1 _ => (.MultiScalarG1, 2, 1)
  | .msmeg2 _ => (.MultiScalarG2, 1, 2)
  | .quad _ => (.Quadratic, 1, 1)

/-- The tags and numbers of entries of `pi` and `theta` of the proofs in a variable. -/
def Origin.shape : Origin F G1 G2 GT → List (EquType × Nat × Nat)
  | .received pfs => pfs.map fun pf => (pf.equ_type, pf.pi.length, pf.theta.length)
  | .made c _ _ => [c.equ.shape]

/-- `A`, `B` and `Gamma` have sizes that the verifier takes for `m` and `n` commitments. -/
def AnyEqu.Takes (q : AnyEqu F G1 G2 GT) (m n : Nat) : Prop :=
  match q with
  | .ppe q => q.a_consts.length = n ∧ q.b_consts.length = m ∧ GammaDom m n q.gamma
  | .msmeg1 q => q.a_consts.length = n ∧ q.b_consts.length = m ∧ GammaDom m n q.gamma
  | .msmeg2 q => q.a_consts.length = n ∧ q.b_consts.length = m ∧ GammaDom m n q.gamma
  | .quad q => q.a_consts.length = n ∧ q.b_consts.length = m ∧ GammaDom m n q.gamma

/-- Numbers of entries of `pi` and `theta` that the verifier takes: two where `prove` returns two, and at least one where it returns
one. -/
def AnyEqu.TakesProof (q : AnyEqu F G1 G2 GT) (p t : Nat) : Prop :=
  match q with
  | .ppe _ => p = 2 ∧ t = 2
  | .msmeg1 _ => p = 2 ∧ t ≠ 0
  | .msmeg2 _ => p ≠ 0 ∧ t = 2
  | .quad _ => p ≠ 0 ∧ t ≠ 0

/-- The verifier reaches a verdict. -/
def Ledger.Decides (L : Ledger F G1 G2 GT) (k i j : Nat) (q : AnyEqu F G1 G2 GT) : Prop :=
  (∃ p t, (L.proofs k).shape = [(q.tag, p, t)] ∧ q.TakesProof p t) ∧ q.Takes (L.left i).length (L.right j).length

/-- The proof in `k` was made for the equation, for the items that are now in `i` and `j`, and from their values. -/
def Ledger.Honest (L : Ledger F G1 G2 GT) (k i j : Nat) (q : AnyEqu F G1 G2 GT) : Prop :=
  ∃ c, L.proofs k = .made c (L.left i) (L.right j) ∧ c.equ = q ∧ (L.left i).map (·.val) = c.xs.vals ∧
    (L.right j).map (·.val) = c.ys.vals

/-- The outcomes that the ledger allows. -/
def Ledger.Allows (e : G1 →ₗ[F] G2 →ₗ[F] GT) (crs : CRS G1 G2 GT) (L : Ledger F G1 G2 GT) (op : ApiCall F G1 G2 GT) (o : ApiOutcome) :
    Prop :=
  match op with
  | .batchL _ b => (b.vals = [] → o = .panicked) ∧ (b.vals ≠ [] → o = .done)
  | .batchR _ b => (b.vals = [] → o = .panicked) ∧ (b.vals ≠ [] → o = .done)
  | .prove _ i j c _ => (c.Fits (L.left i) (L.right j) → o = .done) ∧ (¬ c.Fits (L.left i) (L.right j) → o = .panicked)
  | .commitAndProve _ _ _ c _ => (c.WellFormed → o = .done) ∧ (¬ c.WellFormed → o = .panicked)
  | .verify k i j q _ =>
    (¬ L.Decides k i j q → o = .panicked) ∧
    (L.Decides k i j q → ∃ b, o = .verdict b ∧
      (b = true → q.SatBy e crs ((L.left i).map (·.val)) ((L.right j).map (·.val))) ∧
      (L.Honest k i j q → q.SatBy e crs ((L.left i).map (·.val)) ((L.right j).map (·.val)) → b = true))
  | _ => o = .done

/-- Every vector in the program fits into memory. -/
def Ledger.InMemory (L : Ledger F G1 G2 GT) : Prop :=
  (∀ i, Fits64 (L.left i)) ∧ (∀ i, Fits64 (L.right i)) ∧
    ∀ k pfs, L.proofs k = .received pfs → ∀ pf ∈ pfs, pf.Fits

/-- The ledger after the calls. -/
noncomputable def Ledger.after (L : Ledger F G1 G2 GT) (ops : List (ApiCall F G1 G2 GT)) : Ledger F G1 G2 GT :=
  ops.foldl Ledger.step L

/-- Vectors fit into memory before each call and at the end. -/
def Ledger.StaysInMemory (L : Ledger F G1 G2 GT) (ops : List (ApiCall F G1 G2 GT)) : Prop :=
  ∀ k, (L.after (ops.take k)).InMemory

/-- The outcomes are those that the ledger allows, as long as vectors fit into memory. -/
def Ledger.Conforms (e : G1 →ₗ[F] G2 →ₗ[F] GT) (crs : CRS G1 G2 GT) (L : Ledger F G1 G2 GT) :
    List (ApiCall F G1 G2 GT) → List ApiOutcome → Prop
  | [], os => os = []
  | _ :: _, [] => False
  | op :: ops, o :: os => L.InMemory → L.Allows e crs op o ∧ (L.step op).Conforms e crs ops os

end GS
