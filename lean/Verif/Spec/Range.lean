import Verif.Spec.Poker
/-!
# Range notation (specification)

A range text is a list of tokens separated by commas.  A token is a specific hand (`as2h`), a combo (`ak`, `aks`, `ako`, `77`), a
combo with a plus (`a5s+`, `77+`) or two combos with a dash (`a5s-a2s`, `jj-77`), each optionally followed by a weight (`@50`).
-/
namespace Spec

/-- Which suits a combo allows. -/
inductive Suffix
  | any
  | suited
  | offsuit
deriving DecidableEq

/-- Does the hand of cards `a`, `b` have the suits asked for? -/
def Suffix.fits : Suffix → Nat → Nat → Prop
  | .any, _, _ => True
  | .suited, a, b => suit a = suit b
  | .offsuit, a, b => suit a ≠ suit b

/-- The cards `a`, `b` have the ranks `x`, `y` in some order and the suits asked for. -/
def hasRanks (x y : Nat) (s : Suffix) (a b : Nat) : Prop :=
  ((rank a = x ∧ rank b = y) ∨ (rank a = y ∧ rank b = x)) ∧ s.fits a b

/-- A token without its weight. -/
inductive Shape
  /-- two specific cards -/
  | cards (c d : Nat)
  /-- two ranks -/
  | plain (x y : Nat) (s : Suffix)
  /-- two ranks and a plus -/
  | plus (x y : Nat) (s : Suffix)
  /-- two ranks, dash, two ranks; `again`: the suffix is repeated after the second pair of ranks -/
  | dash (x y z t : Nat) (s : Suffix) (again : Bool)

/-- Well-formed tokens. -/
def Shape.Valid : Shape → Prop
  | .cards c d => c < 52 ∧ d < 52 ∧ c ≠ d
  | .plain x y _ => x < 13 ∧ y < 13
  | .plus x y _ => x < 13 ∧ y < 13
  | .dash x y z t _ _ => x < 13 ∧ y < 13 ∧ z < 13 ∧ t < 13 ∧
      ((x = y ∧ z = t) ∨ (x ≠ y ∧ z ≠ t ∧ (x = z ∨ x = t ∨ y = z ∨ y = t)))

/-- The hands a token stands for.
* `x x +`: the pairs from `x` up; `x y +`: rank `x` with a kicker from `y` up to just below `x`;
* `x x - z z`: the pairs from `z` to `x` (so the higher pair has to be first);
* `x y - z t` with a common rank `c`: `c` with every kicker between the two other ranks, inclusive. -/
def Shape.denotes : Shape → Nat → Nat → Prop
  | .cards c d, a, b => (a = c ∧ b = d) ∨ (a = d ∧ b = c)
  | .plain x y s, a, b => hasRanks x y s a b
  | .plus x y s, a, b =>
      (x = y ∧ ∃ r, x ≤ r ∧ r < 13 ∧ hasRanks r r s a b) ∨ (x ≠ y ∧ ∃ r, y ≤ r ∧ r < x ∧ hasRanks x r s a b)
  | .dash x y z t s _, a, b =>
      (x = y ∧ ∃ r, z ≤ r ∧ r ≤ x ∧ hasRanks r r s a b) ∨
      (x ≠ y ∧ ∃ c p q r, ((c = x ∧ p = y) ∨ (c = y ∧ p = x)) ∧ ((c = z ∧ q = t) ∨ (c = t ∧ q = z)) ∧
        min p q ≤ r ∧ r ≤ max p q ∧ hasRanks c r s a b)

/-- Lower-case letters of the ranks. -/
def rankLetter (r : Nat) : Char := ['2', '3', '4', '5', '6', '7', '8', '9', 't', 'j', 'q', 'k', 'a'].getD r '?'
/-- Letters of the suits. -/
def suitLetter (s : Nat) : Char := ['s', 'h', 'c', 'd'].getD s '?'

/-- Letter of the suffix. -/
def Suffix.text : Suffix → List Char
  | .any => []
  | .suited => ['s']
  | .offsuit => ['o']

/-- How a token is written. -/
def Shape.text : Shape → List Char
  | .cards c d => [rankLetter (rank c), suitLetter (suit c), rankLetter (rank d), suitLetter (suit d)]
  | .plain x y s => [rankLetter x, rankLetter y] ++ s.text
  | .plus x y s => [rankLetter x, rankLetter y] ++ s.text ++ ['+']
  | .dash x y z t s again => [rankLetter x, rankLetter y] ++ s.text ++ ['-', rankLetter z, rankLetter t] ++
      (if again then s.text else [])

/-- A token: shape and optional weight, given by its decimal digits. -/
structure Token where
  shape : Shape
  weight : Option (List Nat)

/-- Decimal digit. -/
def digitChar (d : Nat) : Char := ['0', '1', '2', '3', '4', '5', '6', '7', '8', '9'].getD d '?'

/-- Value of a list of decimal digits. -/
def decimal (ds : List Nat) : Nat := ds.foldl (fun n d => n * 10 + d) 0

/-- The weight in percent; 100 if none is given. -/
def Token.percent (t : Token) : Nat :=
  match t.weight with
  | none => 100
  | some ds => decimal ds

/-- Well-formed: the weight is at most 100. -/
def Token.Valid (t : Token) : Prop :=
  t.shape.Valid ∧ ∀ ds, t.weight = some ds → ds ≠ [] ∧ (∀ d ∈ ds, d < 10) ∧ decimal ds ≤ 100

/-- How a token is written. -/
def Token.text (t : Token) : List Char :=
  t.shape.text ++ (match t.weight with | none => [] | some ds => '@' :: ds.map digitChar)

/-- Tokens separated by commas. -/
def rangeText : List Token → List Char
  | [] => []
  | [t] => t.text
  | t :: ts => t.text ++ [','] ++ rangeText ts

/-- The weight a range gives to the hand `a`, `b`: that of the first token that stands for it. -/
def HasWeight (ts : List Token) (a b w : Nat) : Prop :=
  ∃ i, ∃ h : i < ts.length, ts[i].shape.denotes a b ∧ ts[i].percent = w ∧ ∀ j, ∀ hj : j < i, ¬ (ts[j]'(hj.trans h)).shape.denotes a b

end Spec
