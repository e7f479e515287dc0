/-!
# The letters of range texts and card texts (specification)

The letters `a k q j t`, `s h c d` and `o` may be written in upper or in lower case.  A text is read up to the first character that is
none of the letters used.
-/
namespace Spec

/-- The letters of ranks, suits, weights and of the other notation. -/
def rangeNotation : List Char := "akqjt98765432".toList ++ "shcd".toList ++ "0123456789".toList ++ "os+-@,".toList

/-- The letter for which a character stands, in lower case. -/
def letterOf (c : Char) : Option Char :=
  if c ∈ rangeNotation then some c
  else if c.toLower ∈ rangeNotation then some c.toLower
  else if c.toNat = 0x212A then some 'k'
  else none

/-- The letters up to the first character that stands for none. -/
def lettersOf : List Char → List Char
  | [] => []
  | c :: rest =>
    match letterOf c with
    | some l => l :: lettersOf rest
    | none => []

end Spec
