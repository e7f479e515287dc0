import Verif.Spec.Sample
import Mathlib.Data.Nat.Choose.Central
import Mathlib.Tactic.Ring
import Mathlib.Tactic.Linarith
import Mathlib.Tactic.FieldSimp
import Mathlib.Tactic.Positivity
import Mathlib.Algebra.Order.BigOperators.Group.List
import Mathlib.Algebra.BigOperators.Ring.List
/-!
# Means and variances over lists, and over the choices from several lists
-/
namespace Pokers
open Spec

variable {α β : Type}

theorem mean_map (l : List β) (g : β → α) (f : α → ℚ) : mean (l.map g) f = mean l fun x => f (g x) := by
  unfold mean
  rw [List.map_map, List.length_map]
  rfl

theorem mean_congr {l : List α} {f g : α → ℚ} (h : ∀ x ∈ l, f x = g x) : mean l f = mean l g := by
  unfold mean
  rw [List.map_congr_left h]

theorem mean_add (l : List α) (f g : α → ℚ) : (mean l fun x => f x + g x) = mean l f + mean l g := by
  unfold mean
  rw [List.sum_map_add, add_div]

theorem mean_mul (l : List α) (c : ℚ) (f : α → ℚ) : (mean l fun x => c * f x) = c * mean l f := by
  unfold mean
  rw [List.sum_map_mul_left, mul_div_assoc]

theorem mean_const {l : List α} (h : l ≠ []) (c : ℚ) : (mean l fun _ => c) = c := by
  unfold mean
  rw [List.map_const', List.sum_replicate, nsmul_eq_mul, mul_div_cancel_left₀]
  have := List.length_pos_iff.2 h
  exact_mod_cast this.ne'

theorem mean_sub_self {l : List α} (h : l ≠ []) (f : α → ℚ) : (mean l fun x => f x - mean l f) = 0 := by
  have : (mean l fun x => f x + (- mean l f)) = 0 := by rw [mean_add, mean_const h, add_neg_cancel]
  simpa [sub_eq_add_neg] using this

theorem mean_le {l : List α} {f g : α → ℚ} (h : ∀ x ∈ l, f x ≤ g x) : mean l f ≤ mean l g := by
  unfold mean
  exact div_le_div_of_nonneg_right (List.sum_le_sum h) (Nat.cast_nonneg _)

theorem mean_nonneg {l : List α} {f : α → ℚ} (h : ∀ x ∈ l, 0 ≤ f x) : 0 ≤ mean l f := by
  unfold mean
  exact div_nonneg (List.sum_nonneg (by simpa using h)) (Nat.cast_nonneg _)

theorem sum_flatMap_map (l : List α) (cs : List β) {γ : Type} (k : α → β → γ) (g : γ → ℚ) :
    ((l.flatMap fun x => cs.map (k x)).map g).sum = (l.map fun x => (cs.map fun c => g (k x c)).sum).sum := by
  induction l with
  | nil => rfl
  | cons x l ih => rw [List.flatMap_cons, List.map_append, List.sum_append, ih, List.map_map]; rfl

theorem length_flatMap_map (l : List α) (cs : List β) {γ : Type} (k : α → β → γ) :
    (l.flatMap fun x => cs.map (k x)).length = l.length * cs.length := by
  induction l with
  | nil => simp
  | cons x l ih => rw [List.flatMap_cons, List.length_append, ih, List.length_map, List.length_cons]; ring

theorem mean_flatMap (l : List α) (cs : List β) {γ : Type} (k : α → β → γ) (g : γ → ℚ) :
    mean (l.flatMap fun x => cs.map (k x)) g = mean l fun x => mean cs fun c => g (k x c) := by
  unfold mean
  rw [sum_flatMap_map, length_flatMap_map]
  push_cast
  rw [show (l.map fun x => (cs.map fun c => g (k x c)).sum / (cs.length : ℚ)) =
    l.map fun x => (cs.length : ℚ)⁻¹ * (cs.map fun c => g (k x c)).sum from List.map_congr_left fun x _ => by rw [div_eq_mul_inv, mul_comm],
    List.sum_map_mul_left]
  rw [mul_comm (l.length : ℚ), ← div_div, div_eq_inv_mul (List.sum _) (cs.length : ℚ)]

theorem choices_ne_nil {ls : List (List α)} (h : ∀ l ∈ ls, l ≠ []) : choices ls ≠ [] := by
  induction ls with
  | nil => simp [choices]
  | cons l ls ih =>
    unfold choices
    have h1 := h l (by simp)
    have h2 := ih fun l hl => h l (by simp [hl])
    rw [← List.length_pos_iff] at h1 h2 ⊢
    rw [length_flatMap_map]
    exact Nat.mul_pos h1 h2

theorem choices_length (ls : List (List α)) : (choices ls).length = (ls.map List.length).prod := by
  induction ls with
  | nil => rfl
  | cons l ls ih => rw [choices, length_flatMap_map, ih, List.map_cons, List.prod_cons]

/-- The mean of a sum over independent choices. -/
theorem mean_choices {ls : List (List α)} (h : ∀ l ∈ ls, l ≠ []) (f : α → ℚ) :
    (mean (choices ls) fun c => (c.map f).sum) = (ls.map fun l => mean l f).sum := by
  induction ls with
  | nil => simp [choices, mean]
  | cons l ls ih =>
    have h2 : ∀ l ∈ ls, l ≠ [] := fun l hl => h l (by simp [hl])
    rw [choices, mean_flatMap, List.map_cons, List.sum_cons, ← ih h2]
    have : ∀ x ∈ l, (mean (choices ls) fun c => ((x :: c).map f).sum) = f x + mean (choices ls) fun c => (c.map f).sum := by
      intro x _
      simp only [List.map_cons, List.sum_cons]
      rw [mean_add, mean_const (choices_ne_nil h2)]
    rw [mean_congr this, mean_add, mean_const (h l (by simp))]

/-- The variance of a sum over independent choices. -/
theorem variance_choices {ls : List (List α)} (h : ∀ l ∈ ls, l ≠ []) (f : α → ℚ) :
    (variance (choices ls) fun c => (c.map f).sum) = (ls.map fun l => variance l f).sum := by
  induction ls with
  | nil => simp [choices, variance, mean]
  | cons l ls ih =>
    have h1 := h l (by simp)
    have h2 : ∀ l ∈ ls, l ≠ [] := fun l hl => h l (by simp [hl])
    have hc := choices_ne_nil h2
    rw [List.map_cons, List.sum_cons, ← ih h2]
    have hm := mean_choices h f
    rw [List.map_cons, List.sum_cons, ← mean_choices h2 f] at hm
    unfold variance
    rw [hm]
    generalize hS : (mean (choices ls) fun c => (c.map f).sum) = μ
    rw [choices, mean_flatMap]
    have e : ∀ x ∈ l, (mean (choices ls) fun c => (((x :: c).map f).sum - (mean l f + μ)) ^ 2) =
        (f x - mean l f) ^ 2 + mean (choices ls) fun c => ((c.map f).sum - μ) ^ 2 := by
      intro x _
      have e1 : ∀ c ∈ choices ls, (((x :: c).map f).sum - (mean l f + μ)) ^ 2 =
          (f x - mean l f) ^ 2 + (2 * (f x - mean l f) * ((c.map f).sum - μ) + ((c.map f).sum - μ) ^ 2) := by
        intro c _
        rw [List.map_cons, List.sum_cons]
        ring
      rw [mean_congr e1, mean_add, mean_add, mean_mul, mean_const hc]
      have := mean_sub_self hc fun c => (c.map f).sum
      rw [hS] at this
      rw [this]
      ring
    rw [mean_congr e, mean_add, mean_const h1]

theorem variance_nonneg (l : List α) (f : α → ℚ) : 0 ≤ variance l f := mean_nonneg fun _ _ => sq_nonneg _

theorem variance_mul (l : List α) (c : ℚ) (f : α → ℚ) : (variance l fun x => c * f x) = c ^ 2 * variance l f := by
  have e : ∀ x ∈ l, (c * f x - mean l fun x => c * f x) ^ 2 = c ^ 2 * (f x - mean l f) ^ 2 := fun x _ => by rw [mean_mul]; ring
  unfold variance
  rw [mean_congr e, mean_mul]

theorem variance_congr {l : List α} {f g : α → ℚ} (h : ∀ x ∈ l, f x = g x) : variance l f = variance l g := by
  unfold variance
  rw [mean_congr h]
  exact mean_congr fun x hx => by rw [h x hx]

theorem variance_map (l : List β) (g : β → α) (f : α → ℚ) : variance (l.map g) f = variance l fun x => f (g x) := by
  unfold variance
  rw [mean_map, mean_map]

/-- The variance is the mean of the squares less the square of the mean. -/
theorem variance_eq {l : List α} (h : l ≠ []) (f : α → ℚ) : variance l f = (mean l fun x => f x ^ 2) - mean l f ^ 2 := by
  unfold variance
  have : ∀ x ∈ l, (f x - mean l f) ^ 2 = f x ^ 2 + ((-2 * mean l f) * f x + mean l f ^ 2) := fun x _ => by ring
  rw [mean_congr this, mean_add, mean_add, mean_mul, mean_const h]
  ring

/-- Of values between zero and one. -/
theorem variance_le {l : List α} (h : l ≠ []) {f : α → ℚ} (hf : ∀ x ∈ l, 0 ≤ f x ∧ f x ≤ 1) :
    variance l f ≤ mean l f * (1 - mean l f) := by
  rw [variance_eq h]
  have : (mean l fun x => f x ^ 2) ≤ mean l f := mean_le fun x hx => by
    obtain ⟨h1, h2⟩ := hf x hx
    nlinarith
  nlinarith

theorem variance_le_quarter {l : List α} (h : l ≠ []) {f : α → ℚ} (hf : ∀ x ∈ l, 0 ≤ f x ∧ f x ≤ 1) : variance l f ≤ 1 / 4 := by
  have := variance_le h hf
  nlinarith [sq_nonneg (mean l f - 1 / 2)]

/-- Of values zero and one. -/
theorem variance_indicator {l : List α} (h : l ≠ []) {f : α → ℚ} (hf : ∀ x ∈ l, f x = 0 ∨ f x = 1) :
    variance l f = mean l f * (1 - mean l f) := by
  rw [variance_eq h]
  have : (mean l fun x => f x ^ 2) = mean l f := mean_congr fun x hx => by rcases hf x hx with e | e <;> rw [e] <;> norm_num
  rw [this]
  ring

/-- Chebyshev's inequality. -/
theorem chebyshev (l : List α) (f : α → ℚ) {ε : ℚ} (hε : 0 ≤ ε) :
    ((l.countP fun x => decide (ε ≤ |f x - mean l f|) : Nat) : ℚ) * ε ^ 2 ≤ l.length * variance l f := by
  have e : (l.length : ℚ) * variance l f = (l.map fun x => (f x - mean l f) ^ 2).sum := by
    unfold variance
    by_cases h : l = []
    · subst h; simp [mean]
    · conv_lhs => rw [mean]
      have := List.length_pos_iff.2 h
      rw [mul_div_cancel₀]
      exact_mod_cast this.ne'
  rw [e]
  generalize mean l f = μ
  clear e
  induction l with
  | nil => simp
  | cons x l ih =>
    rw [List.countP_cons, List.map_cons, List.sum_cons]
    split
    · rename_i hx
      have hx : ε ≤ |f x - μ| := by simpa using hx
      have : ε ^ 2 ≤ (f x - μ) ^ 2 := by rw [← sq_abs (f x - μ)]; exact pow_le_pow_left₀ hε hx 2
      push_cast
      linarith
    · push_cast
      linarith [sq_nonneg (f x - μ)]

/-! ## Counting -/

theorem countP_flatMap_map {γ : Type} (l : List α) (cs : List β) (k : α → β → γ) (P : γ → Bool) :
    (l.flatMap fun x => cs.map (k x)).countP P = (l.map fun x => cs.countP fun c => P (k x c)).sum := by
  induction l with
  | nil => rfl
  | cons x l ih =>
    rw [List.flatMap_cons, List.countP_append, ih, List.countP_map, List.map_cons, List.sum_cons]
    rfl

theorem sum_map_ite (l : List α) (P : α → Bool) (u v : Nat) :
    (l.map fun x => if P x = true then u else v).sum = l.countP P * u + l.countP (fun x => !P x) * v := by
  induction l with
  | nil => simp
  | cons x l ih =>
    rw [List.map_cons, List.sum_cons, ih, List.countP_cons, List.countP_cons]
    cases P x <;> simp <;> ring

/-- The binomial distribution: the number of ways to choose `N` elements of a list such that exactly `k` of them have a property. -/
theorem countP_choices (l : List α) (P : α → Bool) (N k : Nat) :
    (choices (List.replicate N l)).countP (fun c => c.countP P == k) =
      N.choose k * l.countP P ^ k * l.countP (fun x => !P x) ^ (N - k) := by
  induction N generalizing k with
  | zero => cases k <;> simp [choices]
  | succ N ih =>
    rw [List.replicate_succ, choices, countP_flatMap_map]
    cases k with
    | zero =>
      have : ∀ x ∈ l, ((choices (List.replicate N l)).countP fun c => (x :: c).countP P == 0) =
          if P x = true then 0 else (choices (List.replicate N l)).countP fun c => c.countP P == 0 := by
        intro x _
        cases hx : P x <;> simp [hx]
      rw [List.map_congr_left this, sum_map_ite, ih]
      simp
      ring
    | succ k =>
      have : ∀ x ∈ l, ((choices (List.replicate N l)).countP fun c => (x :: c).countP P == k + 1) =
          if P x = true then (choices (List.replicate N l)).countP fun c => c.countP P == k
          else (choices (List.replicate N l)).countP fun c => c.countP P == k + 1 := by
        intro x _
        cases hx : P x <;> simp [hx]
      rw [List.map_congr_left this, sum_map_ite, ih, ih, Nat.choose_succ_succ, Nat.succ_sub_succ]
      by_cases hk : k + 1 ≤ N
      · rw [show N - k = N - (k + 1) + 1 by omega]
        ring
      · rw [Nat.choose_eq_zero_of_lt (show N < k + 1 by omega)]
        ring

/-- A bound for the central binomial coefficient. -/
theorem centralBinom_sq (n : Nat) : n.centralBinom ^ 2 * (2 * n + 1) ≤ 16 ^ n := by
  induction n with
  | zero => simp
  | succ n ih =>
    have h := Nat.succ_mul_centralBinom_succ n
    have h1 : (n + 1) ^ 2 * ((n + 1).centralBinom ^ 2 * (2 * (n + 1) + 1)) = 4 * (2 * n + 1) * (2 * n + 3) * (n.centralBinom ^ 2 * (2 * n + 1)) := by
      calc (n + 1) ^ 2 * ((n + 1).centralBinom ^ 2 * (2 * (n + 1) + 1)) = ((n + 1) * (n + 1).centralBinom) ^ 2 * (2 * (n + 1) + 1) := by ring
        _ = _ := by rw [h]; ring
    have h2 : 4 * (2 * n + 1) * (2 * n + 3) ≤ (n + 1) ^ 2 * 16 := by nlinarith
    have h3 : (n + 1) ^ 2 * ((n + 1).centralBinom ^ 2 * (2 * (n + 1) + 1)) ≤ (n + 1) ^ 2 * 16 ^ (n + 1) := by
      rw [h1, show (n + 1) ^ 2 * 16 ^ (n + 1) = (n + 1) ^ 2 * 16 * 16 ^ n by ring]
      exact Nat.mul_le_mul h2 ih
    exact Nat.le_of_mul_le_mul_left h3 (by positivity)

end Pokers
