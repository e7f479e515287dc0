import Verif.Spec.Equity
/-!
# Totals over all showdowns (specification)
-/
namespace Spec

/-- Total weight of the showdowns. -/
def totalWeight (sd : List (List WHand × List Nat)) : Nat := (sd.map fun x => dealWeight x.1).sum

/-- Weight of the showdowns in which player `p` shares the pot. -/
def tiesOf (sd : List (List WHand × List Nat)) (p : Nat) : Nat :=
  weightOf sd fun x => p ∈ winners x.2 x.1 ∧ winners x.2 x.1 ≠ [p]

/-- Player `p`'s part of the shared pots. -/
def sharesOf (sd : List (List WHand × List Nat)) (p : Nat) : ℚ :=
  ((sd.filter fun x => p ∈ winners x.2 x.1 ∧ winners x.2 x.1 ≠ [p]).map
    fun x => (dealWeight x.1 : ℚ) / ((winners x.2 x.1).length : ℚ)).sum

end Spec
