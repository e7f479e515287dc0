import Mathlib.Data.List.Rotate
/-!
# Going round a list (specification)
-/
namespace Spec

/-- The entries of `xs` are consecutive entries of `order`, which starts again after its last entry; the first is the one with the
number `k`. -/
def GoesRound {α : Type} (order : List α) (k : Nat) (xs : List α) : Prop :=
  order ≠ [] ∧ ∀ i < xs.length, xs[i]? = order[(k + i) % order.length]?

end Spec
