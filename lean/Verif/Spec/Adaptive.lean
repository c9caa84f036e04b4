import Verif.Spec.Session

/-!
# Left or right: an adversary that drives a whole program

Two worlds run the same program with different secrets. The adversary chooses call after call, each time one call for each world,
after seeing what the earlier calls made public; one of the two worlds is real, and at the end the adversary outputs the probability
with which it guesses that it is the second one.

Admissible calls differ between the worlds only in the secrets: the values committed to, and the values passed to `prove`. An honest
prover passes to `prove` the values that it committed to, and they satisfy the equation. Calls that panic are admissible.
-/

open scoped BigOperators

namespace GS
variable {F G1 G2 GT : Type} [Field F] [AddCommGroup G1] [Module F G1] [AddCommGroup G2] [Module F G2]
  [AddCommGroup GT] [Module F GT]

/-! ### Calls that differ in the secrets only -/

/-- Both are group elements, or both are scalars. -/
def Val.Alike {G : Type} : Val F G → Val F G → Prop
  | .group _, .group _ => True
  | .scalar _, .scalar _ => True
  | _, _ => False

/-- Batches of the same kind and length. -/
def Batch.Alike {G : Type} : Batch F G → Batch F G → Prop
  | .group xs, .group xs' => xs'.length = xs.length
  | .scalar xs, .scalar xs' => xs'.length = xs.length
  | _, _ => False

/-- The same equation, with values of the same kinds and in the same numbers. -/
def Claim.Alike (c c' : Claim F G1 G2 GT) : Prop := c.equ = c'.equ ∧ c.xs.Alike c'.xs ∧ c.ys.Alike c'.ys

/-- The same call, up to the secrets and the schedules of `prove`. -/
def ApiCall.Twins : ApiCall F G1 G2 GT → ApiCall F G1 G2 GT → Prop
  | .commitL i v, .commitL i' v' => i = i' ∧ v.Alike v'
  | .commitR i v, .commitR i' v' => i = i' ∧ v.Alike v'
  | .batchL i b, .batchL i' b' => i = i' ∧ b.Alike b'
  | .batchR i b, .batchR i' b' => i = i' ∧ b.Alike b'
  | .appendL i j, .appendL i' j' => i = i' ∧ j = j'
  | .appendR i j, .appendR i' j' => i = i' ∧ j = j'
  | .cloneL i j, .cloneL i' j' => i = i' ∧ j = j'
  | .cloneR i j, .cloneR i' j' => i = i' ∧ j = j'
  | .reloadL i m w, .reloadL i' m' w' => i = i' ∧ m = m' ∧ w = w'
  | .reloadR i m w, .reloadR i' m' w' => i = i' ∧ m = m' ∧ w = w'
  | .reloadP k m w, .reloadP k' m' w' => k = k' ∧ m = m' ∧ w = w'
  | .prove k i j c _, .prove k' i' j' c' _ => k = k' ∧ i = i' ∧ j = j' ∧ c.Alike c'
  | .commitAndProve k i j c _, .commitAndProve k' i' j' c' _ => k = k' ∧ i = i' ∧ j = j' ∧ c.Alike c'
  | .receive k pfs, .receive k' pfs' => k = k' ∧ pfs = pfs'
  | .verify k i j q sch, .verify k' i' j' q' sch' => k = k' ∧ i = i' ∧ j = j' ∧ q = q' ∧ sch = sch'
  | _, _ => False

/-- The values satisfy the equation. -/
def Claim.Holds (e : G1 →ₗ[F] G2 →ₗ[F] GT) : Claim F G1 G2 GT → Prop
  | .ppe q x y => q.Holds e x y
  | .msmeg1 q x y => q.Holds x y
  | .msmeg2 q x y => q.Holds x y
  | .quad q x y => q.Holds x y

/-- What an honest prover calls: a call of `prove` that does not panic is made with the committed values, and they satisfy the equation.
What is written fits into memory. -/
def Ledger.HonestCall (e : G1 →ₗ[F] G2 →ₗ[F] GT) (L : Ledger F G1 G2 GT) : ApiCall F G1 G2 GT → Prop
  | .prove _ i j c _ => c.Fits (L.left i) (L.right j) →
      (L.left i).map (·.val) = c.xs.vals ∧ (L.right j).map (·.val) = c.ys.vals ∧ c.Holds e
  | .commitAndProve _ _ _ c _ => c.WellFormed → c.Holds e
  | .reloadL i _ _ => Fits64 (L.left i)
  | .reloadR i _ _ => Fits64 (L.right i)
  | .reloadP k _ _ => ∀ pfs, L.proofs k = .received pfs → ∀ pf ∈ pfs, pf.Fits
  | _ => True

/-- The number of scalars in a batch's randomness. -/
def Batch.draws {G : Type} : Batch F G → Nat
  | .group xs => 2 * xs.length
  | .scalar xs => xs.length

/-- The number of scalars that a call draws (at most, if it panics). -/
def ApiCall.draws : ApiCall F G1 G2 GT → Nat
  | .commitL _ (.group _) => 2
  | .commitL _ (.scalar _) => 1
  | .commitR _ (.group _) => 2
  | .commitR _ (.scalar _) => 1
  | .batchL _ b => b.draws
  | .batchR _ b => b.draws
  | .prove _ _ _ c _ => c.equ.draws
  | .commitAndProve _ _ _ c _ => c.xs.draws + (c.ys.draws + c.equ.draws)
  | _ => 0

/-! ### The game -/

/-- What a program has made public: the commitments in all variables and the proofs, without the recorded randomness. -/
structure Public (G1 G2 : Type) where
  left : Nat → List (Com G1)
  right : Nat → List (Com G2)
  proofs : Nat → List (List (Com G2) × List (Com G1) × EquType)

/-- The public part of the store. -/
def Store.pub {ρ : Type} (s : Store ρ F G1 G2) : Public G1 G2 :=
  ⟨fun i => (s.left i).coms, fun i => (s.right i).coms, fun k => (s.proofs k).map fun pf => (pf.pi, pf.theta, pf.equ_type)⟩

/-- An adversary. It stops with an output, or makes the next call (one for each world) and goes on depending on the outcome and on
what is public then, or asks for the randomness of the commitment at position `k` in a variable, that is, for an opening of it. -/
inductive Strategy (F G1 G2 GT : Type) where
  | stop (p : ℝ)
  | call (op op' : ApiCall F G1 G2 GT) (next : ApiOutcome → Public G1 G2 → Strategy F G1 G2 GT)
  | openL (i k : Nat) (next : Option (List F) → Strategy F G1 G2 GT)
  | openR (i k : Nat) (next : Option (List F) → Strategy F G1 G2 GT)

/-- All outputs are probabilities. -/
def Strategy.Bounded : Strategy F G1 G2 GT → Prop
  | .stop p => 0 ≤ p ∧ p ≤ 1
  | .call _ _ next => ∀ o P, (next o P).Bounded
  | .openL _ _ next => ∀ r, (next r).Bounded
  | .openR _ _ next => ∀ r, (next r).Bounded

/-- The call is admissible when the ledgers of the two worlds are `L` and `L'`. -/
def Admissible (e : G1 →ₗ[F] G2 →ₗ[F] GT) (L L' : Ledger F G1 G2 GT) (op op' : ApiCall F G1 G2 GT) : Prop :=
  op.Twins op' ∧ L.HonestCall e op ∧ L'.HonestCall e op'

open Classical in
/-- The expected output of the adversary when the first (`b = false`) or the second (`b = true`) world is real and `s` is its store.
Each call draws from a fresh uniform tape. A commitment is opened only if the values at its position are the same in both worlds. An
adversary that makes a move that is not admissible has output 0. -/
noncomputable def play [Fintype F] [DecidableEq GT] (e : G1 →ₗ[F] G2 →ₗ[F] GT) (crs : CRS G1 G2 GT) (cd : Codecs F G1 G2) (b : Bool) :
    Strategy F G1 G2 GT → Ledger F G1 G2 GT → Ledger F G1 G2 GT → Store (List F) F G1 G2 → ℝ
  | .stop p, _, _, _ => p
  | .call op op' next, L, L', s =>
    if Admissible e L L' op op' then
      𝔼 t : Fin op.draws → F,
        let r := ({ s with rng := List.ofFn t } : Store (List F) F G1 G2).step e crs cd (if b then op' else op)
        play e crs cd b (next r.1 r.2.pub) (L.step op) (L'.step op') r.2
    else 0
  | .openL i k next, L, L', s =>
    if ((L.left i)[k]?).map (·.val) = ((L'.left i)[k]?).map (·.val) then
      play e crs cd b (next (s.left i).rand[k]?) L L' s
    else 0
  | .openR i k next, L, L', s =>
    if ((L.right i)[k]?).map (·.val) = ((L'.right i)[k]?).map (·.val) then
      play e crs cd b (next (s.right i).rand[k]?) L L' s
    else 0

/-- The game from the start, when nothing has been committed to and nothing has been proved. -/
noncomputable def leftRight [Fintype F] [DecidableEq GT] (e : G1 →ₗ[F] G2 →ₗ[F] GT) (crs : CRS G1 G2 GT) (cd : Codecs F G1 G2) (b : Bool)
    (σ : Strategy F G1 G2 GT) : ℝ :=
  play e crs cd b σ Ledger.init Ledger.init (Store.init [])

end GS
