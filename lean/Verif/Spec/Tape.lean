import Verif.Model.Commit

/-!
# Random tapes and ways of calling the commitment functions

A *tape* is a list of field elements; drawing takes the first one.  Running a function on a tape makes its
random draws explicit: a uniformly random run of a function that makes `n` draws is a run on a uniformly random
tape of length `n`.
-/

namespace GS
variable {F G G1 G2 : Type}

/-- The random number generator reading its field elements from a tape (`0` when the tape is used up).
Group elements are not on the tape (committing and proving draw none). -/
instance tapeRng [Zero F] [Zero G1] [Zero G2] : Rng (List F) F G1 G2 where
  randF s := (s.headD 0, s.tail)
  randG1 s := (0, s)
  randG2 s := (0, s)

/-- The first `n` field draws of a random number generator in state `s`, and the state after them. -/
def draws {ρ : Type} (G1 G2 : Type) [Rng ρ F G1 G2] : Nat → ρ → List F × ρ
  | 0, s => ([], s)
  | n + 1, s =>
    let a := Rng.randF (F := F) G1 G2 s
    let l := draws G1 G2 n a.2
    (a.1 :: l.1, l.2)

/-- Commit to the values one after the other and append the results:
`let mut c = commit(x0); for x in xs { c.append(&mut commit(x)) }`. -/
def commitEach {ρ α : Type} (single : α → ρ → Res (Commit F G × ρ)) (x0 : α) (xs : List α) (rng : ρ) :
    Res (Commit F G × ρ) := do
  let c0 ← single x0 rng
  foldRes (fun (acc : Commit F G × ρ) x => do
    let (c, rng) ← single x acc.2
    let (acc', _) ← acc.1.append c
    pure (acc', rng)) c0 xs

/-- How a commitment was put together from single commits, batch commits and appends. -/
inductive Hist (α : Type) where
  | single (x : α)
  | batch (xs : List α)
  | append (h1 h2 : Hist α)

/-- The values committed to, in order. -/
def Hist.values {α : Type} : Hist α → List α
  | single x => [x]
  | batch xs => xs
  | append h1 h2 => h1.values ++ h2.values

/-- No empty batch occurs. -/
def Hist.NoEmptyBatch {α : Type} : Hist α → Prop
  | single _ => True
  | batch xs => xs ≠ []
  | append h1 h2 => h1.NoEmptyBatch ∧ h2.NoEmptyBatch

/-- Carry out a history with the given commitment functions. -/
def Hist.run {ρ α : Type} (single : α → ρ → Res (Commit F G × ρ)) (batch : List α → ρ → Res (Commit F G × ρ)) :
    Hist α → ρ → Res (Commit F G × ρ)
  | .single x, rng => single x rng
  | .batch xs, rng => batch xs rng
  | .append h1 h2, rng => do
    let (c1, rng) ← h1.run single batch rng
    let (c2, rng) ← h2.run single batch rng
    let (c, _) ← c1.append c2
    pure (c, rng)

/-- Prove a list of equations one after the other with a running random number generator. -/
def proveAll {ρ E P : Type} (prove : E → ρ → Res (P × ρ)) : List E → ρ → Res (List P × ρ)
  | [], rng => pure ([], rng)
  | q :: qs, rng => do
    let (pf, rng) ← prove q rng
    let (pfs, rng) ← proveAll prove qs rng
    pure (pf :: pfs, rng)

/-- Append a list of commitments to `c`, one after the other. -/
def appendAll (c : Commit F G) (cs : List (Commit F G)) : Res (Commit F G) :=
  foldRes (fun acc c => do
    let (acc, _) ← acc.append c
    pure acc) c cs

/-- Entrywise sum of two commitments and of their randomness. -/
def Commit.sum {F G : Type} [Add F] [AddCommGroup G] (c c' : Commit F G) : Commit F G :=
  ⟨List.zipWith Com.add c.coms c'.coms, List.zipWith (List.zipWith (· + ·)) c.rand c'.rand⟩

/-- Entrywise multiple of a commitment and of its randomness. -/
def Commit.scale {F G : Type} [Field F] [AddCommGroup G] [Module F G] (s : F) (c : Commit F G) : Commit F G :=
  ⟨c.coms.map fun a => a.scalarMul s, c.rand.map fun row => row.map (s * ·)⟩

end GS
