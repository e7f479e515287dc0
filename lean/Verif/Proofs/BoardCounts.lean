import Verif.Proofs.Run
/-!
# Counts over the boards of one deal
-/
namespace Pokers
open Spec CombinedRange

/-- Sum of the contributions of the boards `bs` of the deal `d`. -/
def boardsTally (d : List WHand) (bs : List (List Nat)) : Tally :=
  (bs.map fun B => contrib d.length (cellIndex (phOf d)) (winners B d)).sum

theorem boardsTally_cons (d : List WHand) (B : List Nat) (bs : List (List Nat)) : boardsTally d (B :: bs) =
    contrib d.length (cellIndex (phOf d)) (winners B d) + boardsTally d bs := by
  unfold boardsTally; rw [List.map_cons, List.sum_cons]

theorem boardsTally_mask (d : List WHand) (bs : List (List Nat)) (i : Nat) :
    (boardsTally d bs).1 i = bs.countP fun B => u8Mask (winners B d) = i := by
  induction bs with
  | nil => rfl
  | cons B bs ih =>
    rw [boardsTally_cons, List.countP_cons, ← ih, Nat.add_comm]
    show (Pi.single (u8Mask (winners B d)) 1 : Nat → Nat) i + (boardsTally d bs).1 i = _
    congr 1
    by_cases h : u8Mask (winners B d) = i
    · subst h; rw [Pi.single_eq_same]; simp
    · rw [Pi.single_eq_of_ne (fun h' => h h'.symm)]; simp [h]

theorem boardsTally_cell (d : List WHand) (hd : WfDeal d) (bs : List (List Nat)) {p a b : Nat} (ha : a < 52) (hb : b < 52)
    (hab : a ≠ b) (hH : Holds p a b d) : (boardsTally d bs).2 (NUM_HANDS * p + getCardIndex a b) =
      (bs.countP fun B => winners B d = [p], bs.countP fun B => p ∈ winners B d ∧ winners B d ≠ [p], bs.length,
       ((bs.filter fun B => p ∈ winners B d ∧ winners B d ≠ [p]).map fun B => 1 / ((winners B d).length : ℚ)).sum) := by
  induction bs with
  | nil => rfl
  | cons B bs ih =>
    have hc := contrib_cell hd (winners_nodup B d) (fun i hi => winners_lt hi) ha hb hab (p := p)
    rw [boardsTally_cons]
    show (contrib d.length (cellIndex (phOf d)) (winners B d)).2 (NUM_HANDS * p + getCardIndex a b) +
      (boardsTally d bs).2 (NUM_HANDS * p + getCardIndex a b) = _
    rw [ih, hc, List.countP_cons, List.countP_cons, List.filter_cons, List.length_cons]
    simp only [hH, true_and, if_true]
    by_cases h1 : winners B d = [p]
    · simp [h1, add_comm]
    · by_cases h2 : p ∈ winners B d
      · simp [h1, h2, add_comm]
      · simp [h1, h2, add_comm]

theorem boardsTally_other (d : List WHand) (hd : WfDeal d) (bs : List (List Nat)) {p a b : Nat} (ha : a < 52) (hb : b < 52)
    (hab : a ≠ b) (hH : ¬ Holds p a b d) : (boardsTally d bs).2 (NUM_HANDS * p + getCardIndex a b) = 0 := by
  induction bs with
  | nil => rfl
  | cons B bs ih =>
    have hc := contrib_cell hd (winners_nodup B d) (fun i hi => winners_lt hi) ha hb hab (p := p)
    rw [boardsTally_cons]
    show (contrib d.length (cellIndex (phOf d)) (winners B d)).2 (NUM_HANDS * p + getCardIndex a b) +
      (boardsTally d bs).2 (NUM_HANDS * p + getCardIndex a b) = _
    rw [ih, hc]
    simp only [hH, false_and, if_false, add_zero]
    rfl

/-! ## Weights and masks -/

theorem weightOf_congr {sd : List (List WHand × List Nat)} {P Q : List WHand × List Nat → Prop} [DecidablePred P] [DecidablePred Q]
    (h : ∀ x ∈ sd, (P x ↔ Q x)) : weightOf sd P = weightOf sd Q := by
  unfold weightOf
  congr 2
  apply List.filter_congr
  intro x hx
  rw [decide_eq_decide]
  exact h x hx

/-- With at most eight players the entry of a mask is the weight of the showdowns won by exactly its players. -/
theorem CountsOf.masks {n : Nat} {r : Results} {sd : List (List WHand × List Nat)} (h : CountsOf n r sd)
    (hl : ∀ x ∈ sd, x.1.length = n) (h8 : n ≤ 8) : ∀ i < 2 ^ n, r.winsByMask i = winsOf sd (maskPlayers n i) := by
  intro i hi
  rw [h.mask i hi]
  unfold winsOf
  apply weightOf_congr
  intro x hx
  have := hl x hx
  rw [u8Mask_eq_iff (by omega) (by rw [this]; exact hi), this]

theorem maskPlayers_two_pow {n p : Nat} (hp : p < n) : maskPlayers n (2 ^ p) = [p] := by
  unfold maskPlayers
  have e : (fun q => (2 ^ p).testBit q) = fun q => decide (p = q) := by
    funext q; rw [Nat.testBit_two_pow]
  rw [e]
  have : ∀ n, (List.range n).filter (fun q => decide (p = q)) = if p < n then [p] else [] := by
    intro n
    induction n with
    | zero => rfl
    | succ n ih =>
      rw [List.range_succ, List.filter_append, ih]
      by_cases h : p = n
      · subst h; simp
      · by_cases h2 : p < n
        · simp [h, h2, Nat.lt_succ_of_lt h2]
        · have : ¬ p < n + 1 := by omega
          simp [h, h2, this]
  rw [this, if_pos hp]

theorem CountsOf.playerWins {n : Nat} {r : Results} {sd : List (List WHand × List Nat)} (h : CountsOf n r sd)
    (hl : ∀ x ∈ sd, x.1.length = n) (h8 : n ≤ 8) : ∀ p < n, r.wins p = winsOf sd [p] := by
  intro p hp
  rw [h.wins p hp, h.masks hl h8 _ (Nat.pow_lt_pow_right (by omega) hp), maskPlayers_two_pow hp]

theorem weightOf_or {sd : List (List WHand × List Nat)} {P Q : List WHand × List Nat → Prop} [DecidablePred P] [DecidablePred Q]
    (h : ∀ x ∈ sd, P x → ¬ Q x) : weightOf sd (fun x => P x ∨ Q x) = weightOf sd P + weightOf sd Q := by
  induction sd with
  | nil => rfl
  | cons x sd ih =>
    rw [weightOf_cons, weightOf_cons, weightOf_cons, ih (fun y hy => h y (by simp [hy]))]
    by_cases h1 : P x
    · have h2 := h x (by simp) h1
      simp only [h1, h2, or_false, if_true, if_false]; omega
    · by_cases h2 : Q x
      · simp only [h1, h2, or_true, if_true, if_false]; omega
      · simp only [h1, h2, or_false, if_false]; omega

/-- Somebody wins. -/
theorem winners_ne_nil {B : List Nat} {d : List WHand} (h : 0 < d.length) : winners B d ≠ [] := by
  obtain ⟨i, hi, hmax⟩ : ∃ i < d.length, ∀ j < d.length, strength B d j ≤ strength B d i := by
    obtain ⟨i, hi, hm⟩ := Finset.exists_max_image (Finset.range d.length) (strength B d) ⟨0, Finset.mem_range.2 h⟩
    exact ⟨i, Finset.mem_range.1 hi, fun j hj => hm j (Finset.mem_range.2 hj)⟩
  intro h0
  have : i ∈ winners B d := by
    unfold winners
    rw [List.mem_filter, decide_eq_true_iff]
    exact ⟨List.mem_range.2 hi, hmax⟩
  rw [h0] at this
  simp at this

/-! ## Nine players -/

theorem u8Mask_nine (B : List Nat) {d : List WHand} (h9 : d.length = 9) :
    u8Mask (winners B d) = u8Mask ((winners B d).filter (· ≠ 8)) ∧ u8Mask (winners B d) < 2 ^ 8 ∧
    (∀ j, (u8Mask (winners B d)).testBit j = true ↔ j < 8 ∧ j ∈ winners B d) := by
  rw [winners_filter]
  generalize (fun i => decide (∀ j < d.length, strength B d j ≤ strength B d i)) = P
  rw [h9]
  have e1 : (List.range 9).filter P = (List.range 8).filter P ++ (if P 8 then [8] else []) := by
    rw [List.range_succ, List.filter_append]
    cases hP : P 8 <;> simp [hP]
  have e2 : ((List.range 9).filter P).filter (· ≠ 8) = (List.range 8).filter P := by
    rw [e1, List.filter_append]
    have h1 : ((List.range 8).filter P).filter (· ≠ 8) = (List.range 8).filter P := by
      rw [List.filter_eq_self]
      intro a ha
      have := List.mem_range.1 (List.mem_filter.1 ha).1
      simpa using (by omega : a ≠ 8)
    have h2 : (if P 8 then [8] else []).filter (· ≠ 8) = [] := by
      cases hP : P 8 <;> simp
    rw [h1, h2, List.append_nil]
  have e3 : u8Mask ((List.range 9).filter P) = u8Mask ((List.range 8).filter P) := by
    rw [e1, u8Mask_append]
    have : u8Mask (if P 8 then [8] else []) = 0 := by cases hP : P 8 <;> decide
    rw [this, add_zero]
  obtain ⟨h1, h2⟩ := u8Mask_filter P 8 le_rfl
  rw [e2, e3]
  refine ⟨rfl, h1, fun j => ?_⟩
  rw [h2, Bool.and_eq_true, decide_eq_true_iff, List.mem_filter, List.mem_range]
  constructor
  · rintro ⟨a, b⟩; exact ⟨a, by omega, b⟩
  · rintro ⟨a, _, b⟩; exact ⟨a, b⟩

end Pokers
