import Verif.Proofs.ScoreExact
/-!
# The scores themselves (C73)

C01 says that scores are ordered like hands.  Here: which numbers they are (`Spec/Score.lean`), and how many.
-/
namespace Pokers
open Spec Kernel

/-- The score of a hand of two to seven different cards is the number of its best poker hand: 4096 times the category plus the
place among the strengths of that category (flushes have the places of the high-card hands). -/
theorem C73_exact {cs : List Nat} (h : IsCards cs) (h2 : 2 ≤ cs.length) (h7 : cs.length ≤ 7) :
    (ofCards cs).evaluate = scoreOf (best cs) := evaluate_scoreOf h h2 h7

/-- A pair of aces with three kings and two queens on the board is as good as the full house that can be played. -/
example : (ofCards [48, 49, 44, 45, 46, 40, 41]).evaluate = scoreOf [7, 11, 12] :=
  (C73_exact (by decide) (by decide) (by decide)).trans (congrArg scoreOf (show best [48, 49, 44, 45, 46, 40, 41] = [7, 11, 12] by decide +kernel))

/-- The numbers of the strengths of each category: how many places there are. -/
def places : Nat → Nat
  | 1 => 2356 | 2 => 3887 | 3 => 936 | 4 => 1027 | 5 => 10 | 7 => 156 | 8 => 169 | 9 => 10 | _ => 0

/-- Within a category other than the flushes, the scores of the hands of two to five cards are the numbers from 1 to the number of
places, without a gap. -/
theorem C73_no_gaps {c : Nat} (hc : 1 ≤ c ∧ c ≤ 9) (h6 : c ≠ 6) (i : Nat) (hi : i < 4096) :
    (∃ ds, IsCards ds ∧ 2 ≤ ds.length ∧ ds.length ≤ 5 ∧ (ofCards ds).evaluate = 4096 * c + i) ↔ 1 ≤ i ∧ i ≤ places c := by
  have hm : c ∈ [1, 2, 3, 4, 5, 7, 8, 9] := by simp only [List.mem_cons, List.not_mem_nil, or_false]; omega
  have e : ∀ c ∈ [1, 2, 3, 4, 5, 7, 8, 9], sizes.getD c 0 = places c := by decide
  rw [← e c hm, ← category_full hm hi, smallScores_iff]

/-- The lowest score of all is 4097, that of 3-2, and the highest 36874, that of the royal flush. -/
example : (ofCards [0, 5]).evaluate = 4097 ∧ (ofCards [48, 44, 40, 36, 32]).evaluate = 4096 * 9 + places 9 := by
  rw [← ev_eq, ← ev_eq]; decide +kernel

/-- The number of different scores of hands of `n` cards. -/
def distinctScores : Nat → Nat
  | 2 => 91 | 3 => 455 | 4 => 1820 | 5 => 7462 | 6 => 6075 | 7 => 4824 | _ => 0

theorem Kernel.ScoreSet.ncard {n M : Nat} (h : ScoreSet n M) : {s | ∃ cs, IsCards cs ∧ cs.length = n ∧ (ofCards cs).evaluate = s}.ncard = countBits M 36875 0 0 := by
  rw [countBits_eq, Nat.zero_add]
  have : {s | ∃ cs, IsCards cs ∧ cs.length = n ∧ (ofCards cs).evaluate = s} = ((Finset.range 36875).filter fun i => M.testBit (0 + i) = true : Finset Nat) := by
    ext s
    rw [Finset.mem_coe, Finset.mem_filter, Finset.mem_range, Nat.zero_add, Set.mem_ofPred_eq, ← h.mem]
    exact ⟨fun hb => ⟨h.small s hb, hb⟩, fun hb => hb.2⟩
  rw [this, Set.ncard_coe_finset]

/-- Hands of `n` cards have exactly `distinctScores n` different scores. -/
theorem C73_number {n : Nat} (h2 : 2 ≤ n) (h7 : n ≤ 7) :
    {s | ∃ cs, IsCards cs ∧ cs.length = n ∧ (ofCards cs).evaluate = s}.ncard = distinctScores n := by
  have : n = 2 ∨ n = 3 ∨ n = 4 ∨ n = 5 ∨ n = 6 ∨ n = 7 := by omega
  rcases this with rfl | rfl | rfl | rfl | rfl | rfl
  · exact scores_of_2.ncard.trans number_2
  · exact scores_of_3.ncard.trans number_3
  · exact scores_of_4.ncard.trans number_4
  · exact scores_of_5.ncard.trans number_5
  · exact scores_of_6.ncard.trans number_6
  · exact scores_of_7.ncard.trans number_7

/-- Therefore, by the rules of poker alone, hands of `n` cards come in `distinctScores n` strengths: the well-known 7462 for five
cards and 4824 for seven. -/
theorem C73_strengths {n : Nat} (h2 : 2 ≤ n) (h7 : n ≤ 7) :
    {v | ∃ cs, IsCards cs ∧ cs.length = n ∧ best cs = v}.ncard = distinctScores n := by
  rw [← C73_number h2 h7]
  have hs : {s | ∃ cs, IsCards cs ∧ cs.length = n ∧ (ofCards cs).evaluate = s} = scoreOf '' {v | ∃ cs, IsCards cs ∧ cs.length = n ∧ best cs = v} := by
    ext s
    constructor
    · rintro ⟨cs, h, hl, rfl⟩
      exact ⟨best cs, ⟨cs, h, hl, rfl⟩, (C73_exact h (by omega) (by omega)).symm⟩
    · rintro ⟨_, ⟨cs, h, hl, rfl⟩, rfl⟩
      exact ⟨cs, h, hl, C73_exact h (by omega) (by omega)⟩
  rw [hs, Set.InjOn.ncard_image]
  rintro _ ⟨xs, hx, lx, rfl⟩ _ ⟨ys, hy, ly, rfl⟩ he
  rw [← C73_exact hx (by omega) (by omega), ← C73_exact hy (by omega) (by omega)] at he
  exact (C01_evaluate_order hx hy (by omega) (by omega) (by omega) (by omega)).2.1.1 he

end Pokers
