import Verif.Proofs.Sampling
import Mathlib.Algebra.Order.Chebyshev
import Mathlib.Data.List.GetD
/-!
# Sums over the deals of a batch
-/
namespace Pokers
open Spec

variable {α β γ : Type}

theorem mean_perm {l l' : List α} (h : l.Perm l') (f : α → ℚ) : mean l f = mean l' f := by
  unfold mean
  rw [(h.map f).sum_eq, h.length_eq]

theorem variance_perm {l l' : List α} (h : l.Perm l') (f : α → ℚ) : variance l f = variance l' f := by
  unfold variance
  rw [mean_perm h, mean_perm h]

/-- The mean over a list of lists of the same length. -/
theorem mean_bind {l : List α} {g : α → List β} {N : Nat} (hN : ∀ x ∈ l, (g x).length = N) (f : β → ℚ) :
    mean (l.flatMap g) f = mean l fun x => mean (g x) f := by
  have h1 : (l.flatMap g).length = l.length * N := by
    rw [List.length_flatMap, List.map_congr_left hN, List.map_const', List.sum_replicate, smul_eq_mul]
  have h2 : ((l.flatMap g).map f).sum = (l.map fun x => ((g x).map f).sum).sum := by
    rw [List.flatMap_def, List.map_flatten, List.sum_flatten, List.map_map, List.map_map]
    rfl
  unfold mean
  rw [h1, h2, show (l.map fun x => ((g x).map f).sum / ((g x).length : ℚ)) = l.map fun x => (N : ℚ)⁻¹ * ((g x).map f).sum from
    List.map_congr_left fun x hx => by rw [hN x hx, div_eq_inv_mul], List.sum_map_mul_left]
  push_cast
  rw [mul_comm (l.length : ℚ), ← div_div, div_eq_inv_mul (List.sum _) (N : ℚ)]

theorem mean_comm (l : List α) (m : List β) (f : α → β → ℚ) : (mean l fun x => mean m fun y => f x y) = mean m fun y => mean l fun x => f x y := by
  induction l with
  | nil => simp [mean]
  | cons a l ih =>
    have key : ∀ g : α → ℚ, (l.map g).sum = mean l g * l.length := by
      intro g
      unfold mean
      by_cases h : l = []
      · subst h; simp
      · have := List.length_pos_iff.2 h
        rw [div_mul_cancel₀]
        exact_mod_cast this.ne'
    have e : ∀ g : α → ℚ, mean (a :: l) g = (((a :: l).length : Nat) : ℚ)⁻¹ * (g a + l.length * mean l g) := by
      intro g
      rw [mean, List.map_cons, List.sum_cons, key, div_eq_inv_mul, mul_comm (mean l g)]
    simp only [e]
    rw [mean_mul, mean_add, mean_mul, ih]

theorem mean_zero (l : List α) : (mean l fun _ => (0 : ℚ)) = 0 := by
  unfold mean
  rw [List.map_const', List.sum_replicate, smul_zero, zero_div]

/-- The mean of a sum. -/
theorem mean_sum (l : List α) (ks : List β) (f : β → α → ℚ) : (mean l fun x => (ks.map fun k => f k x).sum) = (ks.map fun k => mean l (f k)).sum := by
  induction ks with
  | nil => exact mean_zero l
  | cons k ks ih =>
    simp only [List.map_cons, List.sum_cons]
    rw [mean_add, ih]

/-- The mean square about any point. -/
theorem mean_sq {l : List α} (h : l ≠ []) (f : α → ℚ) (c : ℚ) : (mean l fun x => (f x - c) ^ 2) = variance l f + (mean l f - c) ^ 2 := by
  rw [variance_eq h]
  have : ∀ x ∈ l, (f x - c) ^ 2 = f x ^ 2 + ((-2 * c) * f x + c ^ 2) := fun x _ => by ring
  rw [mean_congr this, mean_add, mean_add, mean_mul, mean_const h]
  ring

theorem sq_sum_le (n : Nat) (a : Nat → ℚ) : (((List.range n).map a).sum) ^ 2 ≤ n * ((List.range n).map fun k => a k ^ 2).sum := by
  have := sq_sum_le_card_mul_sum_sq (s := Finset.range n) (f := a)
  rw [Finset.card_range] at this
  exact this

theorem sum_getD (l : List α) (c : α) (f : α → ℚ) : (l.map f).sum = ((List.range l.length).map fun k => f (l.getD k c)).sum := by
  congr 1
  refine List.ext_getElem (by rw [List.length_map, List.length_map, List.length_range]) fun i h1 h2 => ?_
  rw [List.length_map] at h1
  rw [List.getElem_map, List.getElem_map, List.getElem_range, List.getD_eq_getElem _ _ h1]

section
variable {board dead : List Nat} {X : List α} {M : List β} {path : α → β → List (List WHand)} {D : List (List WHand)} {n N : Nat}

/-- All boards for all deals on all paths. -/
def pathSpace (board dead : List Nat) (X : List α) (M : List β) (path : α → β → List (List WHand)) : List (List (List WHand × List Nat)) :=
  X.flatMap fun x => M.flatMap fun m => outcomes board dead (path x m)

/-- On the paths every deal comes up equally often at each place. -/
structure Balanced (board dead : List Nat) (X : List α) (M : List β) (path : α → β → List (List WHand)) (D : List (List WHand)) (n N : Nat) : Prop where
  first : X ≠ []
  moves : M ≠ []
  length : ∀ x ∈ X, ∀ m ∈ M, (path x m).length = n
  perm : ∀ m ∈ M, ∀ k < n, (X.map fun x => (path x m).getD k []).Perm D
  boards : ∀ dd ∈ D, (boards board dead dd).length = N
  pos : 0 < N

variable (h : Balanced board dead X M path D n N)
include h

theorem Balanced.mem {x : α} (hx : x ∈ X) {m : β} (hm : m ∈ M) {dd : List WHand} (hdd : dd ∈ path x m) : dd ∈ D := by
  obtain ⟨k, hk, rfl⟩ := List.getElem_of_mem hdd
  have := h.perm m hm k (by rw [← h.length x hx m hm]; exact hk)
  refine this.mem_iff.1 (List.mem_map.2 ⟨x, hx, ?_⟩)
  rw [List.getD_eq_getElem _ _ hk]

theorem Balanced.board_ne {dd : List WHand} (hdd : dd ∈ D) : Spec.boards board dead dd ≠ [] := by
  rw [← List.length_pos_iff, h.boards dd hdd]
  exact h.pos

theorem Balanced.lists {x : α} (hx : x ∈ X) {m : β} (hm : m ∈ M) :
    ∀ l ∈ (path x m).map (fun dd => (Spec.boards board dead dd).map fun B => (dd, B)), l ≠ [] := by
  intro l hl
  obtain ⟨dd, hdd, rfl⟩ := List.mem_map.1 hl
  intro e
  exact h.board_ne (h.mem hx hm hdd) (List.map_eq_nil_iff.1 e)

theorem Balanced.outcomes_length {x : α} (hx : x ∈ X) {m : β} (hm : m ∈ M) : (outcomes board dead (path x m)).length = N ^ n := by
  unfold outcomes
  rw [choices_length, List.map_map, List.map_congr_left (g := fun _ => N) (fun dd hdd => ?_), List.map_const', List.prod_replicate, h.length x hx m hm]
  show ((Spec.boards board dead dd).map _).length = N
  rw [List.length_map, h.boards dd (h.mem hx hm hdd)]

theorem Balanced.length_space : (pathSpace board dead X M path).length = X.length * (M.length * N ^ n) := by
  unfold pathSpace
  rw [List.length_flatMap, List.map_congr_left (g := fun _ => M.length * N ^ n) (fun x hx => ?_), List.map_const', List.sum_replicate, smul_eq_mul]
  rw [List.length_flatMap, List.map_congr_left (g := fun _ => N ^ n) (fun m hm => h.outcomes_length hx hm), List.map_const', List.sum_replicate, smul_eq_mul]

theorem Balanced.space_ne : pathSpace board dead X M path ≠ [] := by
  rw [← List.length_pos_iff, h.length_space]
  exact Nat.mul_pos (List.length_pos_iff.2 h.first) (Nat.mul_pos (List.length_pos_iff.2 h.moves) (Nat.pow_pos h.pos))

/-- The mean over all paths is the mean over the paths of the means over the boards. -/
theorem Balanced.mean_space (Φ : List (List WHand × List Nat) → ℚ) : mean (pathSpace board dead X M path) Φ =
    mean M fun m => mean X fun x => mean (outcomes board dead (path x m)) Φ := by
  unfold pathSpace
  rw [mean_bind (N := M.length * N ^ n), mean_comm]
  · exact mean_congr fun x hx => mean_bind (fun m hm => h.outcomes_length hx hm) Φ
  · intro x hx
    rw [List.length_flatMap, List.map_congr_left (g := fun _ => N ^ n) (fun m hm => h.outcomes_length hx hm), List.map_const', List.sum_replicate, smul_eq_mul]

theorem Balanced.mean_sum {m : β} (hm : m ∈ M) (g : List WHand → ℚ) : (mean X fun x => ((path x m).map g).sum) = n * mean D g := by
  rw [mean_congr (g := fun x => ((List.range n).map fun k => g ((path x m).getD k [])).sum) (fun x hx => by
    rw [sum_getD _ [], h.length x hx m hm]), Pokers.mean_sum, List.map_congr_left (g := fun _ => mean D g), List.map_const', List.sum_replicate,
    List.length_range, nsmul_eq_mul]
  intro k hk
  rw [← mean_perm (h.perm m hm k (List.mem_range.1 hk)), mean_map]

/-- The mean of a sum over the showdowns of a batch. -/
theorem Balanced.space_mean (f : List WHand × List Nat → ℚ) : (mean (pathSpace board dead X M path) fun sd => (sd.map f).sum) =
    n * mean D fun dd => mean (Spec.boards board dead dd) fun B => f (dd, B) := by
  rw [h.mean_space, mean_congr (g := fun _ => n * mean D fun dd => mean (Spec.boards board dead dd) fun B => f (dd, B)), mean_const h.moves]
  intro m hm
  rw [← h.mean_sum hm]
  refine mean_congr fun x hx => ?_
  unfold outcomes
  rw [mean_choices (h.lists hx hm), List.map_map]
  congr 1
  apply List.map_congr_left
  intro dd _
  exact mean_map _ _ _

/-- The variance of a sum over the showdowns of a batch. -/
theorem Balanced.space_variance (f : List WHand × List Nat → ℚ) : (variance (pathSpace board dead X M path) fun sd => (sd.map f).sum) ≤
    n * (mean D fun dd => variance (Spec.boards board dead dd) fun B => f (dd, B)) +
      n ^ 2 * variance D fun dd => mean (Spec.boards board dead dd) fun B => f (dd, B) := by
  set g : List WHand → ℚ := fun dd => mean (Spec.boards board dead dd) fun B => f (dd, B) with hg
  set v : List WHand → ℚ := fun dd => variance (Spec.boards board dead dd) fun B => f (dd, B) with hv
  unfold variance
  rw [h.space_mean, h.mean_space, ← mean_const h.moves (_ + _)]
  refine mean_le fun m hm => ?_
  have e : ∀ x ∈ X, (mean (outcomes board dead (path x m)) fun sd => ((sd.map f).sum - n * mean D g) ^ 2) =
      ((path x m).map v).sum + (((path x m).map g).sum - n * mean D g) ^ 2 := by
    intro x hx
    rw [mean_sq (by unfold outcomes; exact choices_ne_nil (h.lists hx hm))]
    unfold outcomes
    rw [mean_choices (h.lists hx hm), variance_choices (h.lists hx hm), List.map_map, List.map_map]
    congr 2
    · apply List.map_congr_left
      intro dd _
      exact variance_map _ _ _
    · congr 2
      apply List.map_congr_left
      intro dd _
      exact mean_map _ _ _
  rw [mean_congr e, mean_add, h.mean_sum hm]
  refine add_le_add le_rfl ?_
  have e2 : ∀ x ∈ X, (((path x m).map g).sum - n * mean D g) ^ 2 ≤ n * ((path x m).map fun dd => (g dd - mean D g) ^ 2).sum := by
    intro x hx
    rw [sum_getD _ [], sum_getD _ [] fun dd => (g dd - mean D g) ^ 2, h.length x hx m hm]
    have := sq_sum_le n fun k => g ((path x m).getD k []) - mean D g
    have e3 : ((List.range n).map fun k => g ((path x m).getD k []) - mean D g).sum =
        ((List.range n).map fun k => g ((path x m).getD k [])).sum - n * mean D g := by
      simp only [sub_eq_add_neg]
      rw [List.sum_map_add, List.map_const', List.sum_replicate, List.length_range, nsmul_eq_mul, mul_neg]
    rw [e3] at this
    exact this
  refine (mean_le e2).trans (le_of_eq ?_)
  rw [mean_mul, h.mean_sum hm fun dd => (g dd - mean D g) ^ 2]
  ring

end

/-- `K` independent batches. -/
theorem batches_mean {Ω : List (List α)} (hΩ : Ω ≠ []) (K : Nat) (f : α → ℚ) :
    (mean ((choices (List.replicate K Ω)).map List.flatten) fun sd => (sd.map f).sum) = K * mean Ω fun B => (B.map f).sum := by
  rw [mean_map, mean_congr (g := fun ω => (ω.map fun B => (B.map f).sum).sum) (fun ω _ => by rw [List.map_flatten, List.sum_flatten, List.map_map]; rfl),
    mean_choices (fun l hl => by rw [List.eq_of_mem_replicate hl]; exact hΩ), List.map_replicate, List.sum_replicate, nsmul_eq_mul]

theorem batches_variance {Ω : List (List α)} (hΩ : Ω ≠ []) (K : Nat) (f : α → ℚ) :
    (variance ((choices (List.replicate K Ω)).map List.flatten) fun sd => (sd.map f).sum) = K * variance Ω fun B => (B.map f).sum := by
  rw [variance_map, variance_congr (g := fun ω => (ω.map fun B => (B.map f).sum).sum) (fun ω _ => by rw [List.map_flatten, List.sum_flatten, List.map_map]; rfl),
    variance_choices (fun l hl => by rw [List.eq_of_mem_replicate hl]; exact hΩ), List.map_replicate, List.sum_replicate, nsmul_eq_mul]

end Pokers
