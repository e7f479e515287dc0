import Verif.Proofs.EvalCorrect
import Verif.Spec.Draws
import Mathlib.Data.Finset.Card
import Mathlib.Data.Finset.Range
import Mathlib.Data.Finset.Image
/-!
# Comparing flushes

A hand with five cards of a suit that contains every card of the suit from rank `R` upwards beats every flush of that suit without
the card of rank `R`.
-/
namespace Pokers
open Spec

theorem filter_lt_filter {R : Nat} {P Q : Nat → Bool} : ∀ {L : List Nat}, L.Pairwise (· > ·) → R ∈ L →
    (∀ r ∈ L, R ≤ r → P r = true) → Q R = false → L.filter Q < L.filter P
  | [], _, h, _, _ => by cases h
  | a :: L, hL, hR, hP, hQ => by
    obtain ⟨ha, hL'⟩ := List.pairwise_cons.1 hL
    have hRa : R ≤ a := by
      rcases List.mem_cons.1 hR with h | h
      · exact h.le
      · exact (ha R h).le
    have hPa := hP a (by simp) hRa
    have hless : L.filter Q < a :: L.filter P := by
      cases hq : L.filter Q with
      | nil => exact List.nil_lt_cons _ _
      | cons b l =>
        have hb : b ∈ L := (List.mem_filter.1 (hq ▸ List.mem_cons_self : b ∈ L.filter Q)).1
        exact List.cons_lt_cons_iff.2 (.inl (ha b hb))
    rw [List.filter_cons_of_pos hPa]
    by_cases hQa : Q a = true
    · rw [List.filter_cons_of_pos hQa]
      have hne : R ≠ a := by rintro rfl; rw [hQa] at hQ; cases hQ
      have hRL : R ∈ L := (List.mem_cons.1 hR).resolve_left hne
      exact List.cons_lt_cons_iff.2 (.inr ⟨rfl, filter_lt_filter hL' hRL (fun r hr => hP r (by simp [hr])) hQ⟩)
    · rw [List.filter_cons_of_neg hQa]
      exact hless

theorem sublist_keeping {P : Nat → Prop} [DecidablePred P] : ∀ (l : List Nat) (n : Nat), l.countP (fun c => decide (P c)) ≤ n → n ≤ l.length →
    ∃ l' : List Nat, l'.Sublist l ∧ l'.length = n ∧ ∀ c ∈ l, P c → c ∈ l'
  | [], n, _, h => ⟨[], List.Sublist.refl _, by simp at h; simp [h], by simp⟩
  | a :: l, n, h, hn => by
    rw [List.countP_cons] at h
    by_cases hP : P a
    · simp only [hP, decide_true, if_true] at h
      obtain ⟨n, rfl⟩ : ∃ m, n = m + 1 := ⟨n - 1, by omega⟩
      obtain ⟨l', h1, h2, h3⟩ := sublist_keeping (P := P) l n (by omega) (by simpa using hn)
      refine ⟨a :: l', h1.cons_cons a, by simp [h2], fun c hc hp => ?_⟩
      rcases List.mem_cons.1 hc with rfl | hc
      · simp
      · exact List.mem_cons_of_mem _ (h3 c hc hp)
    · simp only [hP, decide_false, Bool.false_eq_true, if_false, add_zero] at h
      by_cases hl : n ≤ l.length
      · obtain ⟨l', h1, h2, h3⟩ := sublist_keeping (P := P) l n h hl
        refine ⟨l', h1.cons a, h2, fun c hc hp => ?_⟩
        rcases List.mem_cons.1 hc with rfl | hc
        · exact absurd hp hP
        · exact h3 c hc hp
      · exact ⟨a :: l, List.Sublist.refl _, by simp at hn ⊢; omega, fun c hc _ => hc⟩

/-- five cards of suit `s` -/
structure SuitHand (S : List Nat) (s : Nat) : Prop where
  cards : IsCards S
  length : S.length = 5
  suit : ∀ c ∈ S, Spec.suit c = s

namespace SuitHand
variable {S : List Nat} {s : Nat}

theorem card_eq (h : SuitHand S s) {c : Nat} (hc : c ∈ S) : c = 4 * Spec.rank c + s := by
  have := h.suit c hc
  unfold Spec.suit at this; unfold Spec.rank; omega

theorem lt4 (h : SuitHand S s) : s < 4 := by
  have hl := h.length
  cases hS : S with
  | nil => rw [hS] at hl; simp at hl
  | cons c l =>
    have := h.suit c (by simp [hS])
    unfold Spec.suit at this; omega

theorem countRank_eq (h : SuitHand S s) (r : Nat) : countRank S r = if 4 * r + s ∈ S then 1 else 0 := by
  have h4 := h.lt4
  unfold countRank
  have : S.countP (fun c => Nat.beq (Spec.rank c) r) = S.count (4 * r + s) := by
    unfold List.count
    apply List.countP_congr
    intro c hc
    have := h.card_eq hc
    simp only [Nat.beq_eq, beq_iff_eq]
    constructor
    · rintro e; rw [this, e]
    · rintro rfl; unfold Spec.rank; omega
  rw [this]
  split
  · rename_i hm; exact List.count_eq_one_of_mem h.cards.1 hm
  · rename_i hm; exact List.count_eq_zero.2 hm

theorem isFlush_eq (h : SuitHand S s) : isFlush S = true := by
  have h4 := h.lt4
  unfold isFlush
  rw [h.length]
  simp only [Nat.beq_refl, Bool.true_and, List.any_eq_true, List.all_eq_true]
  exact ⟨s, by simp; omega, fun c hc => by rw [h.suit c hc]; exact Nat.beq_refl s⟩

theorem ranksWith_big (h : SuitHand S s) {k : Nat} (hk : 2 ≤ k) : ranksWith (countRank S) k = [] := by
  unfold ranksWith
  rw [List.filter_eq_nil_iff]
  intro r _
  rw [h.countRank_eq]
  simp only [Nat.beq_eq]
  split <;> omega

theorem pattern_eq (h : SuitHand S s) : pattern (countRank S) = ranksDesc.filter (fun r => decide (4 * r + s ∈ S)) := by
  unfold pattern
  rw [h.ranksWith_big (by omega), h.ranksWith_big (by omega), h.ranksWith_big (by omega)]
  simp only [List.nil_append]
  unfold ranksWith
  apply List.filter_congr
  intro r _
  rw [h.countRank_eq]
  split <;> rename_i hm <;> (simp [hm]; try rfl)

theorem category_eq (h : SuitHand S s) : category S = if (straightTop (countRank S)).isSome then 9 else 6 := by
  unfold category categoryOf
  rw [h.isFlush_eq, h.ranksWith_big (by omega), h.ranksWith_big (by omega), h.ranksWith_big (by omega)]
  cases (straightTop (countRank S)).isSome <;> rfl

theorem value_eq (h : SuitHand S s) (hc : category S = 6) :
    value S = 6 :: ranksDesc.filter (fun r => decide (4 * r + s ∈ S)) := by
  have hn : straightTop (countRank S) = none := by
    rw [h.category_eq] at hc
    cases hs : straightTop (countRank S) with
    | none => rfl
    | some t => rw [hs] at hc; simp at hc
  have : value S = category S :: _ := rfl
  rw [this, hc, hn, h.pattern_eq]

/-- A flush that has all the cards from rank `R` upwards beats one that lacks that of rank `R`. -/
theorem value_lt {T : List Nat} {R : Nat} (hS : SuitHand S s) (hT : SuitHand T s) (hcT : category T = 6) (hR : R < 13)
    (hall : ∀ r < 13, R ≤ r → 8 ≤ r → 4 * r + s ∈ S) (hno : 4 * R + s ∉ T) : value T < value S := by
  by_cases hcS : category S = 6
  · rw [hS.value_eq hcS, hT.value_eq hcT]
    refine List.cons_lt_cons_iff.2 (.inr ⟨rfl, ?_⟩)
    refine filter_lt_filter (R := R) (by decide) ?_ (fun r hr hRr => ?_) (by simpa using hno)
    · unfold ranksDesc; simp; omega
    · have hr13 : r < 13 := by unfold ranksDesc at hr; simp at hr; omega
      simp only [decide_eq_true_eq]
      by_cases h8 : 8 ≤ R
      · exact hall r hr13 hRr (by omega)
      · exfalso
        have hst : (straightTop (countRank S)).isSome = true := by
          unfold straightTop
          rw [Option.isSome_map, List.find?_isSome]
          refine ⟨(12, [12, 11, 10, 9, 8]), by simp [straights], ?_⟩
          simp only [List.all_eq_true]
          intro q hq
          rw [hS.countRank_eq, if_pos (hall q (by simp at hq; omega) (by simp at hq; omega) (by simp at hq; omega))]
          rfl
        rw [hS.category_eq, hst] at hcS
        simp at hcS
  · have h9 : category S = 9 := by
      rw [hS.category_eq] at hcS ⊢
      split at hcS <;> simp_all
    have eS : value S = category S :: _ := rfl
    have eT : value T = category T :: _ := rfl
    rw [eS, eT, h9, hcT]
    exact List.cons_lt_cons_iff.2 (.inl (by omega))

end SuitHand

/-- A playable hand of category flush consists of cards of one suit. -/
theorem suitHand_of_category {T : List Nat} (hT : IsCards T) (hc : category T = 6) : ∃ s < 4, SuitHand T s := by
  have hf : isFlush T = true := by
    by_contra hn
    have hn' : isFlush T = false := by simpa using hn
    unfold category categoryOf at hc
    rw [hn'] at hc
    simp only [Bool.and_false, Bool.false_eq_true, if_false] at hc
    split_ifs at hc <;> omega
  unfold isFlush at hf
  simp only [Bool.and_eq_true, Nat.beq_eq, List.any_eq_true, List.all_eq_true] at hf
  obtain ⟨h5, s, hs, hall⟩ := hf
  exact ⟨s, by simp at hs; omega, hT, h5, hall⟩

/-- Cards with at least five of suit `s`, among them all from rank `R` upwards, beat every flush of that suit without the card of rank `R`. -/
theorem best_beats {cs T : List Nat} {s R : Nat} (h : IsCards cs) (h5 : 5 ≤ cs.countP (fun c => decide (Spec.suit c = s)))
    (hR : R < 13) (hall : ∀ r < 13, R ≤ r → 4 * r + s ∈ cs) (hT : SuitHand T s) (hcT : category T = 6) (hno : 4 * R + s ∉ T) :
    value T < best cs := by
  have hs4 := hT.lt4
  let l := cs.filter (fun c => decide (Spec.suit c = s))
  have hl : 5 ≤ l.length := by rw [← List.countP_eq_length_filter]; exact h5
  have hnd : l.Nodup := h.1.filter _
  obtain ⟨S, h1, h2, h3⟩ := sublist_keeping (P := fun c => max R 8 ≤ Spec.rank c) l 5 (by
    rw [List.countP_eq_length_filter]
    have hsub : (l.filter (fun c => decide (max R 8 ≤ Spec.rank c))).toFinset ⊆ (Finset.range 5).image (fun i => 4 * (i + 8) + s) := by
      intro c hc
      simp only [List.mem_toFinset, List.mem_filter, decide_eq_true_eq, l, Finset.mem_image, Finset.mem_range] at hc ⊢
      have hc52 := h.2 c hc.1.1
      obtain ⟨⟨_, e⟩, hr⟩ := hc
      unfold Spec.suit at e; unfold Spec.rank at hr
      exact ⟨c / 4 - 8, by omega, by omega⟩
    have hcard := Finset.card_le_card hsub
    rw [List.toFinset_card_of_nodup (hnd.filter _)] at hcard
    exact hcard.trans (Finset.card_image_le.trans (by simp))) hl
  have hsub : S.Sublist cs := h1.trans List.filter_sublist
  have hS : SuitHand S s := ⟨⟨h.1.sublist hsub, fun c hc => h.2 c (hsub.subset hc)⟩, h2, fun c hc => by
    simpa using (List.mem_filter.1 (h1.subset hc)).2⟩
  have hlen : 5 ≤ cs.length := h5.trans List.countP_le_length
  have hp : S ∈ playable cs := by
    unfold playable
    rw [Nat.min_eq_left hlen, List.mem_sublistsLen]
    exact ⟨hsub, h2⟩
  refine lt_of_lt_of_le (hS.value_lt hT hcT hR (fun r hr hRr h8 => ?_) hno) (le_best hp)
  refine h3 _ (List.mem_filter.2 ⟨hall r hr hRr, ?_⟩) ?_
  · unfold Spec.suit; simp; omega
  · unfold Spec.rank; omega

end Pokers
