import Mathlib.Data.List.Chain
import Verif.Spec.Equity
/-!
# Deals that differ in the hands of one group of players
-/
namespace Spec

/-- At most the hands of the players of one group are different. -/
def OneGroup (groups : List (List Nat)) (x y : List WHand) : Prop := ∃ g ∈ groups, ∀ p, p ∉ g → x[p]? = y[p]?

/-- A property of deals that does not change when a legal deal is replaced by another one with the same hands outside a group. -/
def Kept (groups : List (List Nat)) (D : List (List WHand)) (P : List WHand → Prop) : Prop :=
  ∀ x ∈ D, ∀ y ∈ D, OneGroup groups x y → (P x ↔ P y)

/-- Along a sequence of such changes the property is the same at all deals. -/
theorem Kept.chain {groups : List (List Nat)} {D : List (List WHand)} {P : List WHand → Prop} (h : Kept groups D P) :
    ∀ {xs : List (List WHand)}, (∀ x ∈ xs, x ∈ D) → xs.IsChain (OneGroup groups) → ∀ x ∈ xs, ∀ y ∈ xs, P x ↔ P y := by
  have key : ∀ (xs : List (List WHand)) (a : List WHand), (∀ x ∈ a :: xs, x ∈ D) → (a :: xs).IsChain (OneGroup groups) →
      ∀ x ∈ a :: xs, P a ↔ P x := by
    intro xs
    induction xs with
    | nil => intro a _ _ x hx; rw [List.mem_singleton.1 hx]
    | cons c xs ih =>
      intro a hD hc x hx
      rw [List.isChain_cons_cons] at hc
      rcases List.mem_cons.1 hx with rfl | hx
      · exact Iff.rfl
      · exact (h a (hD a List.mem_cons_self) c (hD c (List.mem_cons_of_mem _ List.mem_cons_self)) hc.1).trans
          (ih c (fun y hy => hD y (List.mem_cons_of_mem _ hy)) hc.2 x hx)
  intro xs hD hc x hx y hy
  cases xs with
  | nil => cases hx
  | cons a xs => exact (key xs a hD hc x hx).symm.trans (key xs a hD hc y hy)

end Spec
