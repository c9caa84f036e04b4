import Verif.Spec.Adaptive
import Verif.Spec.Simulator
import Verif.Spec.Joint

/-!
# A simulator that drives a whole program without its secrets

The adversary chooses call after call, after seeing what the earlier calls made public. In the real world the library performs the
calls. In the simulated world a simulator, who chose the CRS and knows its trapdoors `t1` and `t2`, answers them: it is given each call
with all secrets replaced by zeros. It commits to zeros; where the library would prove, it computes a proof from the trapdoors; and
when a commitment is opened, it is told then the scalar, or the group element as a multiple of the generator, and computes randomness
for it from the trapdoor. (It could not compute that multiple from the group element efficiently.)
-/

open scoped BigOperators

namespace GS
variable {F G1 G2 GT : Type} [Field F] [AddCommGroup G1] [Module F G1] [AddCommGroup G2] [Module F G2]
  [AddCommGroup GT] [Module F GT]

/-! ### Calls without their secrets -/

/-- Zero instead of the value. -/
def Val.hide {G : Type} [Zero G] : Val F G → Val F G
  | .group _ => .group 0
  | .scalar _ => .scalar 0

/-- Zeros instead of the values. -/
def Batch.hide {G : Type} [Zero G] : Batch F G → Batch F G
  | .group xs => .group (List.replicate xs.length 0)
  | .scalar xs => .scalar (List.replicate xs.length 0)

/-- Zeros instead of the witness. -/
def Claim.hide : Claim F G1 G2 GT → Claim F G1 G2 GT
  | .ppe q x y => .ppe q (List.replicate x.length 0) (List.replicate y.length 0)
  | .msmeg1 q x y => .msmeg1 q (List.replicate x.length 0) (List.replicate y.length 0)
  | .msmeg2 q x y => .msmeg2 q (List.replicate x.length 0) (List.replicate y.length 0)
  | .quad q x y => .quad q (List.replicate x.length 0) (List.replicate y.length 0)

/-- Zeros instead of the secrets, and one schedule for all calls of `prove`. -/
def ApiCall.hide : ApiCall F G1 G2 GT → ApiCall F G1 G2 GT
  | .commitL i v => .commitL i v.hide
  | .commitR i v => .commitR i v.hide
  | .batchL i b => .batchL i b.hide
  | .batchR i b => .batchR i b.hide
  | .prove k i j c _ => .prove k i j c.hide fun _ => seqSched
  | .commitAndProve k i j c _ => .commitAndProve k i j c.hide fun _ => seqSched
  | op => op

/-! ### The simulator -/

section simulator
variable {ρ : Type} [Rng ρ F G1 G2]

/-- Simulated proof for stored commitments to zeros. Zeros satisfy a pairing product equation with target zero. -/
def Claim.simulate (c : Claim F G1 G2 GT) (sch : Nat → Scheduler) (t1 t2 : F) (cx : Commit F G1) (cy : Commit F G2)
    (crs : CRS G1 G2 GT) (rng : ρ) : Res (EquProof F G1 G2 × ρ) :=
  match c with
  | .ppe q x y => q.prove sch x y cx cy crs rng
  | .msmeg1 q _ _ => q.simulateProof t2 cx cy crs rng
  | .msmeg2 q _ _ => q.simulateProof t1 cx cy crs rng
  | .quad q _ _ => q.simulateProof t1 t2 cx cy crs rng

/-- Commitments to zeros and a simulated proof. -/
def Claim.simulateAll (c : Claim F G1 G2 GT) (sch : Nat → Scheduler) (t1 t2 : F) (crs : CRS G1 G2 GT) (rng : ρ) :
    Res (CProof F G1 G2 × ρ) :=
  match c with
  | .ppe q x y => q.commitAndProve sch x y crs rng
  | .msmeg1 q x y => q.simulate x.length y.length t2 crs rng
  | .msmeg2 q x y => q.simulate x.length y.length t1 crs rng
  | .quad q x y => q.simulate x.length y.length t1 t2 crs rng

/-- The simulator answers a call whose secrets are zeros. Whether `prove` panics does not depend on the secrets, so it is tried out. -/
def Store.simulate (e : G1 →ₗ[F] G2 →ₗ[F] GT) (crs : CRS G1 G2 GT) (cd : Codecs F G1 G2) (t1 t2 : F) [DecidableEq GT]
    (s : Store ρ F G1 G2) : ApiCall F G1 G2 GT → ApiOutcome × Store ρ F G1 G2
  | .prove k i j c sch =>
    match (c.prove sch (s.left i) (s.right j) crs).run s.rng, c.simulate sch t1 t2 (s.left i) (s.right j) crs s.rng with
    | (.ok _, _), .ok (pf, rng) => (.done, { s with rng, proofs := setAt s.proofs k [pf] })
    | (_, rng), _ => (.panicked, { s with rng })
  | .commitAndProve k i j c sch =>
    match (c.commitAndProve sch crs).run s.rng, c.simulateAll sch t1 t2 crs s.rng with
    | (.ok _, _), .ok (cp, rng) => (.done, { rng, left := setAt s.left i cp.xcoms, right := setAt s.right j cp.ycoms,
                                             proofs := setAt s.proofs k cp.equ_proofs })
    | (_, rng), _ => (.panicked, { s with rng })
  | op => s.step e crs cd op

end simulator

/-- Randomness that opens to the scalar `x` what was committed to zero with randomness `r`. -/
def equivocate (t x : F) (r : List F) : List F := r.map fun a => a - x * t

/-- Randomness that opens to the group element `x • gen` what was committed to zero with randomness `r`. -/
def equivocateGroup (t x : F) : List F → List F
  | [a, b] => [a - x * t, b + x]
  | r => r

open Classical in
/-- Some `x` with `X = x • gen`. -/
noncomputable def multipleOf {G : Type} [AddCommGroup G] [Module F G] (gen X : G) : F :=
  if h : ∃ x : F, X = x • gen then h.choose else 0

/-- What the simulator is told about an opened value, and the randomness that it then shows. -/
noncomputable def showOpened {G : Type} [AddCommGroup G] [Module F G] (t : F) (gen : G) : Val F G → List F → List F
  | .scalar x, r => equivocate t x r
  | .group X, r => equivocateGroup t (multipleOf gen X) r

/-! ### The game -/

/-- An adversary against zero knowledge: it stops with an output, or makes a call, or has a commitment opened. -/
inductive Examiner (F G1 G2 GT : Type) where
  | stop (p : ℝ)
  | call (op : ApiCall F G1 G2 GT) (next : ApiOutcome → Public G1 G2 → Examiner F G1 G2 GT)
  | openL (i k : Nat) (next : Option (List F) → Examiner F G1 G2 GT)
  | openR (i k : Nat) (next : Option (List F) → Examiner F G1 G2 GT)

/-- All outputs are probabilities. -/
def Examiner.Bounded : Examiner F G1 G2 GT → Prop
  | .stop p => 0 ≤ p ∧ p ≤ 1
  | .call _ next => ∀ o P, (next o P).Bounded
  | .openL _ _ next => ∀ r, (next r).Bounded
  | .openR _ _ next => ∀ r, (next r).Bounded

/-- Proofs are only asked for equations that have a simulator: the target of a pairing product equation is zero. -/
def ApiCall.Simulatable : ApiCall F G1 G2 GT → Prop
  | .prove _ _ _ c _ => c.equ.Simulatable
  | .commitAndProve _ _ _ c _ => c.equ.Simulatable
  | _ => True

open Classical in
/-- The expected output of the adversary in the real world (`sim = false`) or in the simulated one; `L` is the ledger of the calls as
they were made, and `s` is the store of the library or of the simulator. Each call draws from a fresh uniform tape. An adversary
that makes a move that is not allowed has output 0. -/
noncomputable def examine [Fintype F] [DecidableEq GT] (e : G1 →ₗ[F] G2 →ₗ[F] GT) (crs : CRS G1 G2 GT) (cd : Codecs F G1 G2)
    (t1 t2 : F) (sim : Bool) : Examiner F G1 G2 GT → Ledger F G1 G2 GT → Store (List F) F G1 G2 → ℝ
  | .stop p, _, _ => p
  | .call op next, L, s =>
    if L.HonestCall e op ∧ op.Simulatable then
      𝔼 t : Fin op.draws → F,
        let s := ({ s with rng := List.ofFn t } : Store (List F) F G1 G2)
        let r := if sim then s.simulate e crs cd t1 t2 op.hide else s.step e crs cd op
        examine e crs cd t1 t2 sim (next r.1 r.2.pub) (L.step op) r.2
    else 0
  | .openL i k next, L, s =>
    match (L.left i)[k]? with
    | none => examine e crs cd t1 t2 sim (next none) L s
    | some it =>
      examine e crs cd t1 t2 sim (next (if sim then ((s.left i).rand[k]?).map (showOpened t1 crs.g1_gen it.val) else (s.left i).rand[k]?)) L s
  | .openR i k next, L, s =>
    match (L.right i)[k]? with
    | none => examine e crs cd t1 t2 sim (next none) L s
    | some it =>
      examine e crs cd t1 t2 sim (next (if sim then ((s.right i).rand[k]?).map (showOpened t2 crs.g2_gen it.val) else (s.right i).rand[k]?)) L s

/-- The library answers the adversary. -/
noncomputable def realWorld [Fintype F] [DecidableEq GT] (e : G1 →ₗ[F] G2 →ₗ[F] GT) (crs : CRS G1 G2 GT) (cd : Codecs F G1 G2)
    (σ : Examiner F G1 G2 GT) : ℝ :=
  examine e crs cd 0 0 false σ Ledger.init (Store.init [])

/-- The simulator with trapdoors `t1` and `t2` answers the adversary. -/
noncomputable def simulatedWorld [Fintype F] [DecidableEq GT] (e : G1 →ₗ[F] G2 →ₗ[F] GT) (crs : CRS G1 G2 GT) (cd : Codecs F G1 G2)
    (t1 t2 : F) (σ : Examiner F G1 G2 GT) : ℝ :=
  examine e crs cd t1 t2 true σ Ledger.init (Store.init [])

end GS
