import Mathlib.Data.List.Lex
import Mathlib.Data.List.Sublists
/-!
# The rules of poker hands (specification)

Independent of the crate's code.  Cards are the numbers `0 … 51`; the rank of a card is its quotient by four
(`0` is the deuce, `12` the ace), its suit the remainder.
-/
namespace Spec

/-- rank of a card, `0` (deuce) to `12` (ace) -/
def rank (c : Nat) : Nat := c / 4
/-- suit of a card, `0` to `3` -/
def suit (c : Nat) : Nat := c % 4

/-- A list of different cards of the 52-card deck. -/
def IsCards (cs : List Nat) : Prop := cs.Nodup ∧ ∀ c ∈ cs, c < 52

instance (cs : List Nat) : Decidable (IsCards cs) := inferInstanceAs (Decidable (_ ∧ _))

/-- The thirteen ranks, best first. -/
def ranksDesc : List Nat := [12, 11, 10, 9, 8, 7, 6, 5, 4, 3, 2, 1, 0]

/-- How many cards of rank `r` there are in `h`. -/
def countRank (h : List Nat) (r : Nat) : Nat := h.countP (fun c => Nat.beq (rank c) r)

/-- The ranks that occur exactly `k` times (with multiplicities `cnt`), best first. -/
def ranksWith (cnt : Nat → Nat) (k : Nat) : List Nat := ranksDesc.filter (fun r => Nat.beq (cnt r) k)

/-- The ranks of a hand in the order in which hands are compared: quadruples first, then triples, pairs and single
cards, each group best first.  A full house `KKK22` gives `[K, 2]`. -/
def pattern (cnt : Nat → Nat) : List Nat :=
  ranksWith cnt 4 ++ (ranksWith cnt 3 ++ (ranksWith cnt 2 ++ ranksWith cnt 1))

/-- The top ranks of the possible straights and the ranks they consist of, best first; the last one is the wheel A-2-3-4-5. -/
def straights : List (Nat × List Nat) :=
  [(12, [12, 11, 10, 9, 8]), (11, [11, 10, 9, 8, 7]), (10, [10, 9, 8, 7, 6]), (9, [9, 8, 7, 6, 5]),
   (8, [8, 7, 6, 5, 4]), (7, [7, 6, 5, 4, 3]), (6, [6, 5, 4, 3, 2]), (5, [5, 4, 3, 2, 1]),
   (4, [4, 3, 2, 1, 0]), (3, [3, 2, 1, 0, 12])]

/-- The top rank of the straight formed by a hand (of at most five cards) with rank multiplicities `cnt`, if it is one. -/
def straightTop (cnt : Nat → Nat) : Option Nat :=
  (straights.find? (fun s => s.2.all (fun r => Nat.ble 1 (cnt r)))).map Prod.fst

/-- Five cards of one suit. -/
def isFlush (h : List Nat) : Bool :=
  Nat.beq h.length 5 && [0, 1, 2, 3].any (fun s => h.all (fun c => Nat.beq (suit c) s))

/-- Category of a hand of at most five cards from its rank multiplicities and whether it is a flush:
`1` high card, `2` pair, `3` two pair, `4` three of a kind, `5` straight, `6` flush, `7` full house,
`8` four of a kind, `9` straight flush. -/
def categoryOf (cnt : Nat → Nat) (flush : Bool) : Nat :=
  let n4 := (ranksWith cnt 4).length
  let n3 := (ranksWith cnt 3).length
  let n2 := (ranksWith cnt 2).length
  let straight := (straightTop cnt).isSome
  if straight && flush then 9
  else if Nat.beq n4 1 then 8
  else if Nat.beq n3 1 && Nat.beq n2 1 then 7
  else if flush then 6
  else if straight then 5
  else if Nat.beq n3 1 then 4
  else if Nat.beq n2 2 then 3
  else if Nat.beq n2 1 then 2
  else 1

/-- Strength of a hand of at most five cards: the category, then the ranks that break ties (for straights only the
top rank).  Strengths are compared lexicographically. -/
def valueOf (cnt : Nat → Nat) (flush : Bool) : List Nat :=
  categoryOf cnt flush ::
    (match straightTop cnt with
     | some t => [t]
     | none => pattern cnt)

/-- Category of a hand of at most five cards. -/
def category (h : List Nat) : Nat := categoryOf (countRank h) (isFlush h)

/-- Strength of a hand of at most five cards. -/
def value (h : List Nat) : List Nat := valueOf (countRank h) (isFlush h)

/-- The hands that can be played from the cards `cs`: all choices of five cards, or all the cards if there are fewer. -/
def playable (cs : List Nat) : List (List Nat) := cs.sublistsLen (min 5 cs.length)

/-- Strength of the best hand that can be played from `cs`. -/
def best (cs : List Nat) : List Nat := ((playable cs).map value).foldr max []

end Spec
