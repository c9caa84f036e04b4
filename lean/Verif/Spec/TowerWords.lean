import Verif.Props.Words
import Verif.Spec.Tower

/-! # Elements of a prime field in words, with the operations that the tower of fields uses -/

namespace GS.Tower
open Words

/-- The arrays that hold an element. -/
abbrev Word (p : List Nat) := { a : List Nat // Element p a }

section
variable {m : Nat} {p : List Nat} [hm : Fact m.Prime] (h : IsModulus m p)

omit hm in
include h in
theorem element_ofNat (n : Nat) : Element p (ofNat p.length (n * 2 ^ (64 * p.length) % m)) := by
  obtain ⟨h, rfl⟩ := h
  have hlt : n * 2 ^ (64 * p.length) % val p < val p := Nat.mod_lt _ (by have := h.big; omega)
  exact element_of (isWords_ofNat _ _) (by rw [val_ofNat (hlt.trans (val_lt h.isWords))]; exact hlt)

/-- `MontFp!`: the words of a number. -/
def wordOf (n : Nat) : Word p := ⟨ofNat p.length (n * 2 ^ (64 * p.length) % m), element_ofNat h n⟩

/-- The operations of `Fp<MontBackend>` on words, as modelled in `Verif/Model/Words.lean`. None of them panics (C126), so the results can be taken out. -/
@[reducible] def wordOps : Ops (Word p) where
  zero := wordOf h 0
  one := wordOf h 1
  add a b := ⟨Words.add p a.1 b.1, (C126_add h a.2 b.2).1.1⟩
  sub a b := ⟨Words.sub p a.1 b.1, (C126_add h a.2 b.2).2.1.1⟩
  neg a := ⟨Words.neg p a.1, (C126_add h a.2 a.2).2.2.1.1⟩
  mul a b := ⟨(Words.mul p a.1 b.1).get (by obtain ⟨c, e, -⟩ := (C126_mul h a.2 b.2).1; rw [e]; rfl), by obtain ⟨c, e, hc, -⟩ := (C126_mul h a.2 b.2).1; simp only [e, Option.get_some, hc]⟩
  double a := ⟨Words.double p a.1, (C126_add h a.2 a.2).2.2.2.1⟩
  square a := ⟨(Words.square p a.1).get (by obtain ⟨c, e, -⟩ := (C126_mul h a.2 a.2).2; rw [e]; rfl), by obtain ⟨c, e, hc, -⟩ := (C126_mul h a.2 a.2).2; simp only [e, Option.get_some, hc]⟩
  inverse a :=
    match e : Words.inverse p a.1 with
    | some (some c) => some ⟨c, by
        obtain ⟨h0, h1⟩ := C126_inverse h a.2
        by_cases ha : residue m p a.1 = 0
        · rw [h0 ha] at e; simp at e
        · obtain ⟨d, e', hd, -⟩ := h1 ha
          rw [e'] at e
          simp only [Option.some.injEq] at e
          exact e ▸ hd⟩
    | _ => none
  sop2 a b c d := ⟨(Words.sumOfProducts p [(a.1, c.1), (b.1, d.1)]).get (by
      obtain ⟨x, e, -⟩ := C126_sum_of_products h [(a.1, c.1), (b.1, d.1)] (by simp [a.2, b.2, c.2, d.2])
      rw [e]; rfl), by
      obtain ⟨x, e, hx, -⟩ := C126_sum_of_products h [(a.1, c.1), (b.1, d.1)] (by simp [a.2, b.2, c.2, d.2])
      simp only [e, Option.get_some, hx]⟩

end

/-- The element that words stand for. -/
def ofWord (m : Nat) {p : List Nat} (a : Word p) : ZMod m := residue m p a.1

/-- `Fq` of BLS12-381 in words. -/
instance : Ops (Word fqWords) := have := p381_fact; wordOps C126_bls.2

end GS.Tower
