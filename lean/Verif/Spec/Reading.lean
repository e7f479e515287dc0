import Verif.Spec.Range
/-!
# Reading a range text (specification)

What is read of an arbitrary text: tokens, each as long as possible, as long as each but the last is followed by a comma.
-/
namespace Spec

/-- The text begins with the letter. -/
def Begins (c : Char) (l : List Char) : Prop := l.head? = some c

/-- The text begins with a digit. -/
def BeginsDigit (l : List Char) : Prop := ∃ d < 10, Begins (digitChar d) l

/-- What follows the shape does not belong to it. -/
def Shape.Followed : Shape → List Char → Prop
  | .cards _ _, _ => True
  | .plain _ _ s, l => (s = .any → ¬ Begins 'o' l ∧ ¬ Begins 's' l) ∧ ¬ Begins '+' l ∧ ¬ Begins '-' l
  | .plus _ _ _, _ => True
  | .dash _ _ _ _ s again, l => (again = true → s ≠ .any) ∧ (again = false → ¬ Begins 'o' l ∧ ¬ Begins 's' l) ∧
      (again = true → s = .offsuit → ¬ Begins 's' l)

/-- How a weight is written. -/
def weightLetters : Option (List Nat) → List Char
  | none => []
  | some ds => '@' :: ds.map digitChar

/-- What follows the weight does not belong to it.  A weight above 100 percent is not read as a weight. -/
def WeightFollowed : Option (List Nat) → List Char → Prop
  | none, l => ¬ Begins '@' l ∨ ∃ (ds : List Nat) (rest : List Char), l = '@' :: (ds.map digitChar ++ rest) ∧ (∀ d ∈ ds, d < 10) ∧ ¬ BeginsDigit rest ∧ 100 < decimal ds
  | some _, l => ¬ BeginsDigit l

/-- The text `l` begins with the token `t`, which is followed by `rest`.  A weight without digits is read as zero. -/
structure Takes (l : List Char) (t : Token) (rest : List Char) : Prop where
  valid : t.shape.Valid
  weight : ∀ ds, t.weight = some ds → (∀ d ∈ ds, d < 10) ∧ decimal ds ≤ 100
  text : l = t.shape.text ++ (weightLetters t.weight ++ rest)
  shape : t.shape.Followed (weightLetters t.weight ++ rest)
  follow : WeightFollowed t.weight rest

/-- Of the text `l` the tokens `ts` are read and `tail` is left. -/
inductive Reads : List Char → List Token → List Char → Prop
  /-- there is no token -/
  | stop (l : List Char) : (∀ t rest, ¬ Takes l t rest) → Reads l [] l
  /-- the last token is not followed by a comma -/
  | last (l : List Char) (t : Token) (rest : List Char) : Takes l t rest → ¬ Begins ',' rest → Reads l [t] rest
  /-- a token and a comma -/
  | more (l : List Char) (t : Token) (rest : List Char) (ts : List Token) (tail : List Char) :
      Takes l t (',' :: rest) → Reads rest ts tail → Reads l (t :: ts) tail

end Spec
