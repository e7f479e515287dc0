import Verif.Proofs.Cycle
import Mathlib.Algebra.Order.Field.Rat
import Mathlib.Algebra.BigOperators.Group.List.Lemmas
import Mathlib.Algebra.Order.BigOperators.Group.List
import Mathlib.Tactic.Linarith
import Mathlib.Tactic.Ring
/-!
# Sums over lists that go round
-/
namespace Pokers
open Spec

section
variable {α : Type} {order xs : List α} {k : Nat}

/-- A list that goes round is so many complete rounds and a part of a round. -/
theorem GoesRound.split : ∀ (q : Nat) (xs : List α), GoesRound order k xs → xs.length / order.length = q →
    ∃ rest rest', xs.Perm ((List.replicate q order).flatten ++ rest) ∧ (rest ++ rest').Perm order ∧
      rest.length = xs.length % order.length := by
  intro q
  induction q with
  | zero =>
    intro xs h hq
    have hpos : 0 < order.length := List.length_pos_iff.2 h.1
    have hlt : xs.length < order.length := by
      rcases Nat.div_eq_zero_iff.1 hq with h | h
      · omega
      · exact h
    have e : xs = (order.rotate k).take xs.length := by
      apply List.ext_getElem?
      intro i
      by_cases hi : i < xs.length
      · rw [h.2 i hi, List.getElem?_take_of_lt hi, List.getElem?_rotate (by omega), Nat.add_comm]
      · rw [List.getElem?_eq_none (by omega), List.getElem?_eq_none (by rw [List.length_take]; omega)]
    refine ⟨xs, (order.rotate k).drop xs.length, by simp, ?_, (Nat.mod_eq_of_lt hlt).symm⟩
    conv_lhs => rw [e]
    rw [List.length_take, List.length_rotate, Nat.min_eq_left (by omega), List.take_append_drop]
    exact List.rotate_perm order k
  | succ q ih =>
    intro xs h hq
    have hpos : 0 < order.length := List.length_pos_iff.2 h.1
    have hle : order.length ≤ xs.length := by
      by_contra hcon
      rw [Nat.div_eq_of_lt (by omega)] at hq
      cases hq
    have e : xs.take order.length = order.rotate k := by
      apply List.ext_getElem?
      intro i
      by_cases hi : i < order.length
      · rw [List.getElem?_take_of_lt hi, h.2 i (by omega), List.getElem?_rotate hi, Nat.add_comm]
      · rw [List.getElem?_eq_none (by rw [List.length_take]; omega), List.getElem?_eq_none (by rw [List.length_rotate]; omega)]
    have hd : GoesRound order k (xs.drop order.length) := by
      refine ⟨h.1, fun i hi => ?_⟩
      rw [List.length_drop] at hi
      rw [List.getElem?_drop, h.2 _ (by omega), show k + (order.length + i) = k + i + order.length by omega, Nat.add_mod_right]
    have hm : (xs.drop order.length).length / order.length = q := by
      rw [List.length_drop]
      have := Nat.div_eq_sub_div hpos hle
      omega
    obtain ⟨rest, rest', h1, h2, h3⟩ := ih _ hd hm
    refine ⟨rest, rest', ?_, h2, ?_⟩
    · rw [List.replicate_succ, List.flatten_cons, List.append_assoc]
      conv_lhs => rw [← List.take_append_drop order.length xs]
      rw [e]
      exact (List.rotate_perm order k).append h1
    · rw [h3, List.length_drop]
      exact (Nat.mod_eq_sub_mod hle).symm

theorem ceil_zero {a n : Nat} (hn : 0 < n) (h : a % n = 0) : (a + n - 1) / n = a / n := by
  have e := Nat.div_add_mod a n
  apply Nat.div_eq_of_lt_le
  · rw [Nat.mul_comm]; omega
  · rw [Nat.add_mul, Nat.mul_comm]; omega

theorem ceil_pos {a n : Nat} (hn : 0 < n) (h : a % n ≠ 0) : (a + n - 1) / n = a / n + 1 := by
  have e := Nat.div_add_mod a n
  have hl := Nat.mod_lt a hn
  apply Nat.div_eq_of_lt_le
  · rw [Nat.add_mul, Nat.mul_comm]; omega
  · rw [Nat.add_mul, Nat.add_mul, Nat.mul_comm]; omega

theorem sum_replicate_flatten (q : Nat) (f : α → ℚ) : (((List.replicate q order).flatten).map f).sum = q * (order.map f).sum := by
  induction q with
  | zero => simp
  | succ q ih =>
    rw [List.replicate_succ, List.flatten_cons, List.map_append, List.sum_append, ih]
    push_cast
    ring

/-- Every sum of numbers that are not negative is between so many and so many rounds. -/
theorem GoesRound.sums (h : GoesRound order k xs) {f : α → ℚ} (hf : ∀ x ∈ order, 0 ≤ f x) :
    ((xs.length / order.length : Nat) : ℚ) * (order.map f).sum ≤ (xs.map f).sum ∧
    (xs.map f).sum ≤ (((xs.length + order.length - 1) / order.length : Nat) : ℚ) * (order.map f).sum := by
  have hpos : 0 < order.length := List.length_pos_iff.2 h.1
  obtain ⟨rest, rest', h1, h2, h3⟩ := GoesRound.split _ _ h rfl
  have e1 : (xs.map f).sum = ((xs.length / order.length : Nat) : ℚ) * (order.map f).sum + (rest.map f).sum := by
    rw [(h1.map f).sum_eq, List.map_append, List.sum_append, sum_replicate_flatten]
  have e2 : (order.map f).sum = (rest.map f).sum + (rest'.map f).sum := by
    rw [← (h2.map f).sum_eq, List.map_append, List.sum_append]
  have n1 : 0 ≤ (rest.map f).sum := List.sum_nonneg (fun y hy => by
    obtain ⟨x, hx, rfl⟩ := List.mem_map.1 hy
    exact hf x (h2.mem_iff.1 (List.mem_append_left _ hx)))
  have n2 : 0 ≤ (rest'.map f).sum := List.sum_nonneg (fun y hy => by
    obtain ⟨x, hx, rfl⟩ := List.mem_map.1 hy
    exact hf x (h2.mem_iff.1 (List.mem_append_right _ hx)))
  refine ⟨by linarith, ?_⟩
  by_cases hz : xs.length % order.length = 0
  · rw [hz, List.length_eq_zero_iff] at h3
    have hq := ceil_zero hpos hz
    rw [hq, e1, h3]
    simp
  · have hq := ceil_pos hpos hz
    rw [hq, e1]
    push_cast
    rw [add_mul, one_mul]
    linarith

/-- Complete rounds only. -/
theorem GoesRound.sum_exact (h : GoesRound order k xs) (hd : order.length ∣ xs.length) (f : α → ℚ) :
    (xs.map f).sum = ((xs.length / order.length : Nat) : ℚ) * (order.map f).sum := by
  obtain ⟨rest, rest', h1, h2, h3⟩ := GoesRound.split _ _ h rfl
  rw [Nat.mod_eq_zero_of_dvd hd, List.length_eq_zero_iff] at h3
  rw [(h1.map f).sum_eq, List.map_append, List.sum_append, sum_replicate_flatten, h3]
  simp

end

/-- The sum over several lists. -/
theorem sum_flatten {α : Type} (batches : List (List α)) (f : α → ℚ) {lo hi : ℚ} (h : ∀ B ∈ batches, lo ≤ (B.map f).sum ∧ (B.map f).sum ≤ hi) :
    batches.length * lo ≤ (batches.flatten.map f).sum ∧ (batches.flatten.map f).sum ≤ batches.length * hi := by
  induction batches with
  | nil => simp
  | cons B bs ih =>
    obtain ⟨h1, h2⟩ := h B (List.mem_cons_self ..)
    obtain ⟨i1, i2⟩ := ih fun B hB => h B (List.mem_cons_of_mem _ hB)
    rw [List.flatten_cons, List.map_append, List.sum_append, List.length_cons]
    push_cast
    rw [add_mul, add_mul, one_mul, one_mul]
    constructor <;> linarith

theorem length_flatten_const {α : Type} {batches : List (List α)} {n : Nat} (h : ∀ B ∈ batches, B.length = n) :
    batches.flatten.length = n * batches.length := by
  induction batches with
  | nil => rfl
  | cons B bs ih =>
    rw [List.flatten_cons, List.length_append, ih fun B hB => h B (List.mem_cons_of_mem _ hB), h B (List.mem_cons_self ..), List.length_cons,
      Nat.mul_add, Nat.mul_one, Nat.add_comm]

end Pokers
