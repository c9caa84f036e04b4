import Verif.Spec.Serialize
import Verif.Model.Alloc

/-!
# Memory reserved for a value

`room` lists the sizes in bytes of the vectors inside a value, in the order in which they are read. `sF`, `s1`, `s2` are the sizes of
scalars and points; a `Com1` has two points, and a vector takes 24 bytes itself.
-/

namespace GS
variable {F G G1 G2 GT : Type}

def matRoom (sF : Nat) (m : List (List F)) : List Nat := m.length * 24 :: m.map fun r => r.length * sF

def Commit.room (sF s : Nat) (x : Commit F G) : List Nat := x.coms.length * (s + s) :: matRoom sF x.rand
def CRS.room (s1 s2 : Nat) (x : CRS G1 G2 GT) : List Nat := [x.u.length * (s1 + s1), x.v.length * (s2 + s2)]
def EquProof.room (sF s1 s2 : Nat) (x : EquProof F G1 G2) : List Nat :=
  x.pi.length * (s2 + s2) :: x.theta.length * (s1 + s1) :: matRoom sF x.rand
def PPE.room (sF s1 s2 : Nat) (x : PPE F G1 G2 GT) : List Nat := x.a_consts.length * s1 :: x.b_consts.length * s2 :: matRoom sF x.gamma
def MSMEG1.room (sF s1 : Nat) (x : MSMEG1 F G1) : List Nat := x.a_consts.length * s1 :: x.b_consts.length * sF :: matRoom sF x.gamma
def MSMEG2.room (sF s2 : Nat) (x : MSMEG2 F G2) : List Nat := x.a_consts.length * sF :: x.b_consts.length * s2 :: matRoom sF x.gamma
def QuadEqu.room (sF : Nat) (x : QuadEqu F) : List Nat := x.a_consts.length * sF :: x.b_consts.length * sF :: matRoom sF x.gamma

/-- No element is read from an empty input. -/
def Codec.Needs {α : Type} (c : Codec α) : Prop := ∀ m v, ∃ err, c.de m v [] = .error err

/-- What is shown of each type `α` that contains vectors: `good` is the reader with memory, `room` as above, `first` the size of an element of the
first vector, `k` a number of bytes. -/
structure MemLaws {α : Type} (lim : Nat) (c : MemCodec α) (fits valid : α → Prop) (room : α → List Nat) (first k : Nat) : Prop where
  /-- either all requests are granted and the result is that without memory, or the last one is refused -/
  outcome : ∀ m v bs,
    ((∀ n ∈ (c.de m v bs).requests, n ≤ lim) ∧ (c.de m v bs).result = (Reading.lift (c.codec.de m v bs)).result) ∨
    ∃ n ns, (c.de m v bs).requests = ns ++ [n] ∧ (∀ n ∈ ns, n ≤ lim) ∧ lim < n ∧ (c.de m v bs).result = .error (.refused n)
  /-- what is reserved when a value is returned -/
  used : ∀ m v bs x rest, (c.de m v bs).result = .ok (x, rest) → (c.de m v bs).requests = room x
  /-- which is linear in the number of bytes read -/
  linear : ∀ m v bs x rest, (c.de m v bs).result = .ok (x, rest) → (room x).sum + k * rest.length ≤ k * bs.length
  /-- serialized values are read back if there is room for them, and otherwise not -/
  round : ∀ m v x rest, fits x → (v = .Yes → valid x) →
    ((∀ n ∈ room x, n ≤ lim) → c.de m v (c.codec.ser m x ++ rest) = ⟨room x, .ok (x, rest)⟩) ∧
    ((∃ n ∈ room x, lim < n) → ∃ n, (c.de m v (c.codec.ser m x ++ rest)).result = .error (.refused n))
  /-- eight bytes suffice to have any amount reserved, or refused -/
  eight : ∀ m v n, 0 < n → n < 2 ^ 64 →
    (c.de m v (leBytes 8 n)).requests = [n * first] ∧
    (n * first ≤ lim → ∃ err, (c.de m v (leBytes 8 n)).result = .error (.err err)) ∧
    (lim < n * first → (c.de m v (leBytes 8 n)).result = .error (.refused (n * first)))

end GS
