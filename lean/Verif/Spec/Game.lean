import Verif.Spec.Range
import Verif.Spec.Totals
/-!
# An equity problem given by texts (specification)

The players' ranges are written in range notation, the board and the dead cards as lists of cards.  Nothing here refers to the crate's
code.
-/
namespace Spec

/-- A range: everything, or tokens. -/
inductive Described
  | random
  | tokens (ts : List Token)

/-- The weight that the range gives to the hand `a`, `b`. -/
def Described.Gives : Described → Nat → Nat → Nat → Prop
  | .random, _, _, w => w = 100
  | .tokens ts, a, b, w => HasWeight ts a b w

/-- `text` is written for this range, up to upper and lower case (`lower` is the conversion to lower case). -/
def Described.Written (lower : List Char → List Char) : Described → List Char → Prop
  | .random, text => text = "random".toList
  | .tokens ts, text => ts ≠ [] ∧ (∀ t ∈ ts, t.Valid) ∧ lower text = rangeText ts ∧ text ≠ "random".toList

/-- `R` lists every hand of the range once, the higher card first, with its weight. -/
def Described.Lists (r : Described) (R : List WHand) : Prop :=
  (R.map fun h => (h.1, h.2.1)).Nodup ∧ ∀ a b w, (a, b, w) ∈ R ↔ b < a ∧ a < 52 ∧ r.Gives a b w

/-- `text` names the cards `cs`, which are different, up to upper and lower case. -/
def NamesCards (lower : List Char → List Char) (text : List Char) (cs : List Nat) : Prop :=
  cs.Nodup ∧ (∀ c ∈ cs, c < 52) ∧ lower text = cs.flatMap fun c => [rankLetter (rank c), suitLetter (suit c)]

/-- What player `p` wins in a showdown: the weight of the deal, divided among the winners. -/
def winning (p : Nat) (x : List WHand × List Nat) : ℚ :=
  if p ∈ winners x.2 x.1 then (dealWeight x.1 : ℚ) / ((winners x.2 x.1).length : ℚ) else 0

/-- The equity of player `p`: what the player wins in all showdowns, divided by the weight of all showdowns; `none` if there are none
(or all have the weight zero). -/
def equityOf (Rs : List (List WHand)) (board dead : List Nat) (p : Nat) : Option ℚ :=
  let sd := showdowns Rs board dead
  if totalWeight sd = 0 then none else some ((sd.map (winning p)).sum / (totalWeight sd : ℚ))

end Spec
