import Mathlib.Data.Nat.Bitwise
/-!
Disjointness of bit masks.
-/
namespace Pokers

theorem and_eq_zero_iff (a b : Nat) : a &&& b = 0 ↔ ∀ i, a.testBit i = true → b.testBit i = false := by
  constructor
  · intro h i ha
    have : (a &&& b).testBit i = false := by rw [h, Nat.zero_testBit]
    rw [Nat.testBit_and, ha, Bool.true_and] at this
    exact this
  · intro h
    apply Nat.eq_of_testBit_eq
    intro i
    rw [Nat.testBit_and, Nat.zero_testBit]
    cases ha : a.testBit i
    · rfl
    · rw [h i ha]; rfl

theorem testBit_one_shl (a i : Nat) : (1 <<< a).testBit i = decide (i = a) := by
  rw [Nat.one_shiftLeft, Nat.testBit_two_pow]
  simp [eq_comm]

theorem and_or_eq_zero (a b c : Nat) : a &&& (b ||| c) = 0 ↔ a &&& b = 0 ∧ a &&& c = 0 := by
  simp only [and_eq_zero_iff, Nat.testBit_or, Bool.or_eq_false_iff]
  constructor
  · intro h; exact ⟨fun i hi => (h i hi).1, fun i hi => (h i hi).2⟩
  · intro h i hi; exact ⟨h.1 i hi, h.2 i hi⟩

theorem or_and_eq_zero (a b c : Nat) : (a ||| b) &&& c = 0 ↔ a &&& c = 0 ∧ b &&& c = 0 := by
  rw [Nat.and_comm, and_or_eq_zero, Nat.and_comm c a, Nat.and_comm c b]

end Pokers
