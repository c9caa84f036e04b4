import Verif.Spec.RandLeak

/-! # Two proofs made from the same state of the random number generator -/

namespace GS
variable {F G1 G2 GT : Type} [Field F] [AddCommGroup G1] [Module F G1] [AddCommGroup G2] [Module F G2]
  [AddCommGroup GT] [Module F GT]

/-- The views of the proofs computed by two runs on the same tape. -/
def viewsOn {N : Nat} (run run' : List F → Res (CProof F G1 G2 × List F)) (t : Fin N → F) : Res (View G1 G2 × View G1 G2) := do
  let V ← viewOn run t
  let V' ← viewOn run' t
  pure (V, V')

/-- Difference of corresponding elements. -/
def minus {G : Type} [Sub G] (x' x : List G) : List G := List.zipWith (fun a b => a - b) x' x

/-- `x · Γ y` for the product `f`. -/
def cross {A B C : Type} [AddCommGroup C] [Module F C] (f : A → B → C) (gamma : Matrix F) (x : List A) (y : List B) : C :=
  (List.zipWith (fun row x => (List.zipWith (fun s y => s • f x y) row y).sum) gamma x).sum

/-- What a bystander computes from the keys, the constants `b`, `Γ` and `b'`, `Γ'` of two equations, and the commitments
`c`, `d` and `d'` and elements `pi` and `pi'` of proofs for them. -/
def twice (e : G1 →ₗ[F] G2 →ₗ[F] GT) (crs : CRS G1 G2 GT) (b b' : List (Com G2)) (gamma gamma' : Matrix F) (c : List (Com G1))
    (d d' : List (Com G2)) (pi pi' : List (Com G2)) : ComT GT :=
  pairSum e c (minus (weights b' gamma' d') (weights b gamma d)) - pairSum e crs.u (minus pi' pi)

end GS
