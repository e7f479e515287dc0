import Verif.Spec.Poker
/-!
# Draws (specification)

Ranks are `0` (deuce) to `12` (ace).
-/
namespace Spec

/-- A card of rank `r` is among the cards. -/
def HasRank (cs : List Nat) (r : Nat) : Prop := ∃ c ∈ cs, rank c = r

instance (cs : List Nat) (r : Nat) : Decidable (HasRank cs r) := by unfold HasRank; infer_instance

/-- The ranks `i + k`, `k ∈ ks`, are all among the cards. -/
def HasRanks (cs : List Nat) (i : Nat) (ks : List Nat) : Prop := ∀ k ∈ ks, HasRank cs (i + k)

instance (cs : List Nat) (i : Nat) (ks : List Nat) : Decidable (HasRanks cs i ks) := by unfold HasRanks; infer_instance

/-- Four consecutive ranks, the lowest from 3 to 10. -/
def OpenEnded (cs : List Nat) : Prop := ∃ i, 1 ≤ i ∧ i ≤ 8 ∧ HasRanks cs i [0, 1, 2, 3]

/-- Four of five consecutive ranks, one of the middle ones missing; or 2345, or JQKA. -/
def Gutshot (cs : List Nat) : Prop :=
  HasRanks cs 0 [0, 1, 2, 3] ∨ HasRanks cs 9 [0, 1, 2, 3] ∨
  ∃ i, HasRanks cs i [0, 1, 2, 4] ∨ HasRanks cs i [0, 1, 3, 4] ∨ HasRanks cs i [0, 2, 3, 4]

/-- Two straights, each lacking one middle rank: like 2 456 8, or like 23 56 89. -/
def DoubleGutshot (cs : List Nat) : Prop := ∃ i, HasRanks cs i [0, 2, 3, 4, 6] ∨ HasRanks cs i [0, 1, 3, 4, 6, 7]

/-- How many of the ranks from `lo` up to, but not including, `hi` are among the cards. -/
def ranksIn (cs : List Nat) (lo hi : Nat) : Nat := (List.range 13).countP fun r => decide (lo ≤ r ∧ r < hi ∧ HasRank cs r)

/-- Exactly three ranks of a window of five, and at most three of the windows one lower and one higher.  (A window may stick out at
the ace, and the lowest one has no lower neighbour but is cut to 2345.) -/
def BackdoorStraight (cs : List Nat) : Prop :=
  ∃ i ≤ 9, ranksIn cs i (i + 5) = 3 ∧ ranksIn cs (i + 1) (i + 6) ≤ 3 ∧ ranksIn cs (i - 1) (i + 4) ≤ 3

/-- The ranks of the `j`-th window in the search for the best straight: ten to ace, nine to king, …, deuce to six, and finally
deuce to five. -/
def nutWindow (j : Nat) : Nat × Nat := (8 - j, 13 - j)

/-- In the highest of the ten windows in which the board has three ranks or more, the cards have all ranks. -/
def NutStraight (board cs : List Nat) : Prop :=
  ∃ j ≤ 9, (∀ i < j, ranksIn board (nutWindow i).1 (nutWindow i).2 < 3) ∧ 3 ≤ ranksIn board (nutWindow j).1 (nutWindow j).2 ∧
    ∀ r, (nutWindow j).1 ≤ r → r < (nutWindow j).2 → HasRank cs r

/-- How many cards have suit `s`. -/
def suitTotal (cs : List Nat) (s : Nat) : Nat := cs.countP fun c => decide (suit c = s)

/-- One of the hole cards is the highest card of suit `s` that is not on the board. -/
def HoldsBest (board hole : List Nat) (s : Nat) : Prop :=
  ∃ x ∈ hole, suit x = s ∧ ∀ y < 52, suit y = s → x < y → y ∈ board

/-- Rank `r` is missing and would complete five consecutive ranks (not A2345). -/
def Completes (cs : List Nat) (r : Nat) : Prop :=
  r < 13 ∧ ¬ HasRank cs r ∧ ∃ i ≤ 8, ∀ k < 5, HasRank cs (i + k) ∨ i + k = r

/-- The ranks of the straight with top rank `t` (`3` for A2345, otherwise `4` to `12`). -/
def straightRanks (t : Nat) : List Nat := if t = 3 then [3, 2, 1, 0, 12] else [t, t - 1, t - 2, t - 3, t - 4]

/-- The straight with top rank `t` is among the cards. -/
def HasStraight (cs : List Nat) (t : Nat) : Prop := 3 ≤ t ∧ t ≤ 12 ∧ ∀ r ∈ straightRanks t, HasRank cs r

end Spec
