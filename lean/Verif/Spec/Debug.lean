import Verif.Model.Debug

/-!
# What is asked of the output of single elements
-/

namespace GS

/-- A text without its white space. -/
def visible (s : List Char) : List Char := s.filter fun c => !(c == ' ' || c == '\n')

/-- The characters that follow an element in the output of a `Vec` or struct. -/
def closers : List Char := [',', ')', ']', '}']

/-- The text is at its end, or goes on with one of these characters. -/
def Ends (s : List Char) : Prop := ∀ c, s.head? = some c → c ∈ closers

/-- The output of an element does not begin like the end of a list, and one can see which element it is and where its
output ends. (So it is for numbers, for `BigInt([..])`, for `infinity` and for points `(x, y)`.) -/
structure Dbg.Clear {α : Type} (d : Dbg α) : Prop where
  begins : ∀ p a, ∃ c s, visible (d p a) = c :: s ∧ c ∉ closers
  clear : ∀ p a b s t, Ends s → Ends t → visible (d p a) ++ s = visible (d p b) ++ t → a = b ∧ s = t

end GS
