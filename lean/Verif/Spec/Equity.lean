import Verif.Spec.Poker
import Mathlib.Algebra.Order.Field.Rat
import Mathlib.Algebra.BigOperators.Group.List.Basic
/-!
# Deals, showdowns and the brute-force counts (specification)

A player's hole cards are given as `(card, card, weight)`.  Nothing here refers to the crate's code.
-/
namespace Spec

/-- Hole cards with the weight of the hand. -/
abbrev WHand := Nat × Nat × Nat

/-- The two cards of a hand. -/
def cardsOf (h : WHand) : List Nat := [h.1, h.2.1]

/-- All ways to choose one element of each list. -/
def choices {α : Type} : List (List α) → List (List α)
  | [] => [[]]
  | r :: rs => r.flatMap fun h => (choices rs).map (h :: ·)

/-- The cards of the players, in order. -/
def dealt (d : List WHand) : List Nat := d.flatMap cardsOf

/-- A deal uses no card twice and none of the cards `blocked`. -/
def Legal (blocked : List Nat) (d : List WHand) : Prop := (dealt d).Nodup ∧ ∀ c ∈ dealt d, c ∉ blocked

instance (blocked : List Nat) (d : List WHand) : Decidable (Legal blocked d) := inferInstanceAs (Decidable (_ ∧ _))

/-- All deals of one hand of each range that are legal. -/
def deals (ranges : List (List WHand)) (blocked : List Nat) : List (List WHand) :=
  (choices ranges).filter fun d => Legal blocked d

/-- Weight of a deal: the product of the weights of the hands. -/
def dealWeight (d : List WHand) : Nat := (d.map fun h => h.2.2).prod

/-- All sets of `k` cards of the deck that are not among `used`. -/
def completions (used : List Nat) (k : Nat) : List (List Nat) :=
  ((List.range 52).filter fun c => c ∉ used).sublistsLen k

/-- All five-card boards that extend `board` without using a dead or dealt card. -/
def boards (board dead : List Nat) (d : List WHand) : List (List Nat) :=
  (completions (board ++ dead ++ dealt d) (5 - board.length)).map (board ++ ·)

/-- The strength of player `i`'s best five-card hand. -/
def strength (board : List Nat) (d : List WHand) (i : Nat) : List Nat := best (board ++ cardsOf (d.getD i (0, 0, 0)))

/-- The players whose hand is not beaten, in order. -/
def winners (board : List Nat) (d : List WHand) : List Nat :=
  (List.range d.length).filter fun i => ∀ j < d.length, strength board d j ≤ strength board d i

/-- All showdowns: every legal deal with every board. -/
def showdowns (ranges : List (List WHand)) (board dead : List Nat) : List (List WHand × List Nat) :=
  (deals ranges (board ++ dead)).flatMap fun d => (boards board dead d).map fun b => (d, b)

/-- In the deal `d`, player `p` holds the cards `a` and `b` (in either order). -/
def Holds (p a b : Nat) (d : List WHand) : Prop :=
  p < d.length ∧ ((d.getD p (0, 0, 0)).1 = a ∧ (d.getD p (0, 0, 0)).2.1 = b ∨
    (d.getD p (0, 0, 0)).1 = b ∧ (d.getD p (0, 0, 0)).2.1 = a)

instance (p a b : Nat) (d : List WHand) : Decidable (Holds p a b d) := inferInstanceAs (Decidable (_ ∧ _))

/-- Total weight of the showdowns with the property `P`. -/
def weightOf (sd : List (List WHand × List Nat)) (P : List WHand × List Nat → Prop) [DecidablePred P] : Nat :=
  ((sd.filter fun x => P x).map fun x => dealWeight x.1).sum

/-- Weight of the showdowns in which player `p` holds `a` and `b`. -/
def handTotal (sd : List (List WHand × List Nat)) (p a b : Nat) : Nat := weightOf sd fun x => Holds p a b x.1

/-- Weight of the showdowns that player `p` wins alone holding `a` and `b`. -/
def handWins (sd : List (List WHand × List Nat)) (p a b : Nat) : Nat :=
  weightOf sd fun x => Holds p a b x.1 ∧ winners x.2 x.1 = [p]

/-- Weight of the showdowns in which player `p`, holding `a` and `b`, shares the pot. -/
def handTies (sd : List (List WHand × List Nat)) (p a b : Nat) : Nat :=
  weightOf sd fun x => Holds p a b x.1 ∧ p ∈ winners x.2 x.1 ∧ winners x.2 x.1 ≠ [p]

/-- Player `p`'s part of the shared pots, holding `a` and `b`. -/
def handShares (sd : List (List WHand × List Nat)) (p a b : Nat) : ℚ :=
  ((sd.filter fun x => Holds p a b x.1 ∧ p ∈ winners x.2 x.1 ∧ winners x.2 x.1 ≠ [p]).map
    fun x => (dealWeight x.1 : ℚ) / ((winners x.2 x.1).length : ℚ)).sum

/-- Weight of the showdowns won by exactly the players in `ps`. -/
def winsOf (sd : List (List WHand × List Nat)) (ps : List Nat) : Nat := weightOf sd fun x => winners x.2 x.1 = ps

end Spec
