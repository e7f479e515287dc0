import Verif.Model.MonteCarlo
import Mathlib.Topology.Algebra.InfiniteSum.ENNReal
import Mathlib.Data.Set.Card
/-!
Probabilities of computations that draw random values.

A computation is a function of the list of the values that are going to be drawn.  At each draw the values that it accepts (those with which it can
go on to an end) are equally likely, and the draws are independent.
-/
namespace Spec

open Pokers
open scoped ENNReal

variable {α β : Type}

/-- The values that the first draw of a computation can have. -/
def firstDraws (f : Draws → Out α) : Set Nat := {x | ∃ q a, f (x :: q) = .ok a []}

/-- The probability that a computation draws these values. -/
noncomputable def chance (f : Draws → Out α) : Draws → ℝ≥0∞
  | [] => 1
  | x :: ds => ((firstDraws f).encard : ℝ≥0∞)⁻¹ * chance (fun r => f (x :: r)) ds

/-- What a list of draws contributes to an expected value: nothing unless the computation ends after exactly these draws. -/
noncomputable def contribution (f : Draws → Out α) (φ : α → ℝ≥0∞) (ds : Draws) : ℝ≥0∞ :=
  match f ds with
  | .ok a [] => chance f ds * φ a
  | _ => 0

/-- The expected value of `φ` of the result of a computation. -/
noncomputable def expect (f : Draws → Out α) (φ : α → ℝ≥0∞) : ℝ≥0∞ := ∑' ds, contribution f φ ds

/-- The average over a list. -/
noncomputable def average (l : List α) (f : α → ℝ≥0∞) : ℝ≥0∞ := (l.length : ℝ≥0∞)⁻¹ * (l.map f).sum

end Spec
