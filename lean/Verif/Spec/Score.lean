import Verif.Spec.Poker
import Mathlib.Data.Set.Card
/-!
# A numbering of the hands (specification)

Every strength gets a number: 4096 times its category plus its place, from below, among all the strengths of that category that
hands of two to five cards can have.  A flush has the place of the high-card hand of the same ranks.
-/
namespace Spec

/-- The strengths of the hands of two to five cards. -/
def strengths : Set (List Nat) := {v | ∃ ds, IsCards ds ∧ 2 ≤ ds.length ∧ ds.length ≤ 5 ∧ value ds = v}

/-- How many strengths of the same category are not higher. -/
noncomputable def place (v : List Nat) : Nat := {u ∈ strengths | u.head? = v.head? ∧ u ≤ v}.ncard

/-- A flush without its suit is a high-card hand. -/
def unsuited : List Nat → List Nat
  | 6 :: rs => 1 :: rs
  | v => v

/-- The number of a strength. -/
noncomputable def scoreOf (v : List Nat) : Nat := 4096 * v.headI + place (unsuited v)

end Spec
