import Verif.Spec.Game
/-!
# Random samples of showdowns (specification)

Means and variances over lists; every element of a list has the same probability.
-/
namespace Spec

/-- The mean of `f` over a list. -/
def mean {α : Type} (l : List α) (f : α → ℚ) : ℚ := (l.map f).sum / l.length

/-- The mean square of the deviation from the mean. -/
def variance {α : Type} (l : List α) (f : α → ℚ) : ℚ := mean l fun x => (f x - mean l f) ^ 2

/-- All ways to complete the board once for each of the deals `ds`. -/
def outcomes (board dead : List Nat) (ds : List (List WHand)) : List (List (List WHand × List Nat)) :=
  choices (ds.map fun d => (boards board dead d).map fun B => (d, B))

/-- The part of the pot that player `p` gets at a showdown. -/
def potShare (p : Nat) (x : List WHand × List Nat) : ℚ :=
  if p ∈ winners x.2 x.1 then 1 / ((winners x.2 x.1).length : ℚ) else 0

/-- The equity of player `p` over a list of showdowns, which need not be all. -/
def equityIn (sd : List (List WHand × List Nat)) (p : Nat) : ℚ := (sd.map (winning p)).sum / totalWeight sd

/-- The equity of player `p` in the deal `dd`: the mean over all boards. -/
def dealEquity (board dead : List Nat) (p : Nat) (dd : List WHand) : ℚ := mean (boards board dead dd) fun B => potShare p (dd, B)

/-- The variance of the part of player `p` in the deal `dd` over all boards. -/
def dealVariance (board dead : List Nat) (p : Nat) (dd : List WHand) : ℚ := variance (boards board dead dd) fun B => potShare p (dd, B)

end Spec
