import Verif.Spec.Poker
/-!
# Names of cards, hands and combos (specification)
-/
namespace Spec

/-- Letters of the ranks, deuce first. -/
def rankChars : List Char := ['2', '3', '4', '5', '6', '7', '8', '9', 'T', 'J', 'Q', 'K', 'A']
/-- Letters of the suits: spades, hearts, clubs, diamonds. -/
def suitChars : List Char := ['s', 'h', 'c', 'd']

/-- `As`, `Td`, … -/
def cardName (c : Nat) : List Char := [rankChars.getD (rank c) '?', suitChars.getD (suit c) '?']

/-- `AsKd`, … -/
def handName (p : Nat × Nat) : List Char := cardName p.1 ++ cardName p.2

/-- The three kinds of preflop combos. -/
inductive Kind
  | pair
  | suited
  | offsuit
deriving DecidableEq

/-- A preflop combo: ranks `hi ≥ lo` and kind. -/
structure PreCombo where
  hi : Nat
  lo : Nat
  kind : Kind
deriving DecidableEq

/-- `AA`, `AKs`, `AKo`, … -/
def PreCombo.name (c : PreCombo) : List Char :=
  [rankChars.getD c.hi '?', rankChars.getD c.lo '?'] ++
    (match c.kind with | .pair => [] | .suited => ['s'] | .offsuit => ['o'])

/-- The hands of a combo: 6 for a pair, 4 for a suited and 12 for an offsuit combo. -/
def PreCombo.hands (c : PreCombo) : List (Nat × Nat) :=
  match c.kind with
  | .pair => [(0, 1), (0, 2), (0, 3), (1, 2), (1, 3), (2, 3)].map (fun s => (4 * c.hi + s.1, 4 * c.hi + s.2))
  | .suited => [0, 1, 2, 3].map (fun s => (4 * c.hi + s, 4 * c.lo + s))
  | .offsuit => [(0, 1), (0, 2), (0, 3), (1, 0), (1, 2), (1, 3), (2, 0), (2, 1), (2, 3), (3, 0), (3, 1), (3, 2)].map
      (fun s => (4 * c.hi + s.1, 4 * c.lo + s.2))

/-- All ordered pairs of different ranks, best first. -/
def rankPairs : List (Nat × Nat) :=
  ranksDesc.flatMap (fun h => (ranksDesc.filter (fun l => decide (l < h))).map (fun l => (h, l)))

/-- The 169 preflop combos: pairs, then suited, then offsuit combos, best first. -/
def preCombos : List PreCombo :=
  ranksDesc.map (fun r => ⟨r, r, .pair⟩) ++ rankPairs.map (fun p => ⟨p.1, p.2, .suited⟩) ++
    rankPairs.map (fun p => ⟨p.1, p.2, .offsuit⟩)

/-- The 1326 hands in the order of the combos. -/
def allHands : List (Nat × Nat) := preCombos.flatMap PreCombo.hands

end Spec
