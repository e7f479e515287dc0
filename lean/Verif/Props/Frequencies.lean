import Verif.Proofs.FreqTotals
/-!
# How often each category occurs (C69)

The numbers of five-, six- and seven-card hands in each category, as `evaluate() >> 12` classifies them and as the rules
of `Verif/Spec/Poker.lean` do.  They are the well-known frequencies of poker, so they also check the rules written there.
-/
namespace Pokers
open Spec Kernel

/-- The numbers of hands among `hs` with categories one (high card) to nine (straight flush), by their scores. -/
def categoryCounts (hs : List (List Nat)) : List Nat :=
  [1, 2, 3, 4, 5, 6, 7, 8, 9].map (fun c => hs.countP (fun cs => (ofCards cs).evaluate >>> 12 == c))

/-- Every hand of `n` different cards is a rearrangement of exactly one hand of `handsOf n`. -/
theorem C69_hands {cs : List Nat} (h : IsCards cs) : ∃! x, x ∈ handsOf cs.length ∧ cs.Perm x := by
  refine ⟨(List.range 52).filter (fun c => decide (c ∈ cs)), ⟨?_, ?_⟩, ?_⟩
  · have hp : cs.Perm ((List.range 52).filter (fun c => decide (c ∈ cs))) := by
      refine (List.perm_ext_iff_of_nodup h.1 (List.nodup_range.filter _)).2 fun c => ?_
      simp only [List.mem_filter, List.mem_range, decide_eq_true_eq]
      exact ⟨fun hc => ⟨h.2 c hc, hc⟩, fun hc => hc.2⟩
    exact List.mem_sublistsLen.2 ⟨List.filter_sublist, hp.length_eq.symm⟩
  · refine (List.perm_ext_iff_of_nodup h.1 (List.nodup_range.filter _)).2 fun c => ?_
    simp only [List.mem_filter, List.mem_range, decide_eq_true_eq]
    exact ⟨fun hc => ⟨h.2 c hc, hc⟩, fun hc => hc.2⟩
  · rintro y ⟨hy, hp⟩
    have hs := (List.mem_sublistsLen.1 hy).1
    have hd := handsOf_cards hy
    refine List.Perm.eq_of_pairwise (le := fun a b => a < b) (fun a b _ _ h1 h2 => absurd (h1.trans h2) (lt_irrefl a)) ?_ ?_ ?_
    · exact List.Pairwise.sublist hs List.pairwise_lt_range
    · exact List.Pairwise.sublist List.filter_sublist List.pairwise_lt_range
    · refine (List.perm_ext_iff_of_nodup hd.1.1 (List.nodup_range.filter _)).2 fun c => ?_
      simp only [List.mem_filter, List.mem_range, decide_eq_true_eq]
      rw [← hp.mem_iff]
      exact ⟨fun hc => ⟨h.2 c hc, hc⟩, fun hc => hc.2⟩

theorem C69_number (n : Nat) : (handsOf n).length = Nat.choose 52 n ∧ (handsOf n).Nodup :=
  ⟨handsOf_length n, List.nodup_sublistsLen n List.nodup_range⟩

theorem counts_tail {n : Nat} {ks : List Nat}
    (h : (List.range 10).map (fun c => (handsOf n).countP (fun cs => (ofCards cs).evaluate >>> 12 == c)) = 0 :: ks) :
    categoryCounts (handsOf n) = ks := (List.cons.inj h).2

/-- The 2598960 hands of five cards: high card, pair, two pair, three of a kind, straight, flush, full house, four of a
kind, straight flush. -/
theorem C69_five : categoryCounts (handsOf 5) =
    [1302540, 1098240, 123552, 54912, 10200, 5108, 3744, 624, 40] :=
  counts_tail (counts_of_total (by omega) (by omega) rfl (by decide) total_five)

/-- The 20358520 hands of six cards. -/
theorem C69_six : categoryCounts (handsOf 6) =
    [6612900, 9730740, 2532816, 732160, 361620, 205792, 165984, 14664, 1844] :=
  counts_tail (counts_of_total (by omega) (by omega) rfl (by decide) total_six)

/-- The 133784560 hands of seven cards. -/
theorem C69_seven : categoryCounts (handsOf 7) =
    [23294460, 58627800, 31433400, 6461620, 6180020, 4047644, 3473184, 224848, 41584] :=
  counts_tail (counts_of_total (by omega) (by omega) rfl (by decide) total_seven)

/-- Every hand is in one of the nine categories: the numbers add up to the number of hands. -/
theorem C69_sums : (categoryCounts (handsOf 5)).sum = Nat.choose 52 5 ∧ (categoryCounts (handsOf 6)).sum = Nat.choose 52 6 ∧
    (categoryCounts (handsOf 7)).sum = Nat.choose 52 7 := by
  rw [C69_five, C69_six, C69_seven]
  refine ⟨by decide, by decide, by decide⟩

/-- The same numbers from the rules alone: how many hands have a best playable hand of the category. -/
theorem C69_rules {n : Nat} (h2 : 2 ≤ n) (h7 : n ≤ 7) :
    [1, 2, 3, 4, 5, 6, 7, 8, 9].map (fun c => (handsOf n).countP (fun cs => (best cs).head? == some c)) =
      categoryCounts (handsOf n) := by
  refine List.map_congr_left fun c _ => ?_
  refine List.countP_congr fun cs hcs => ?_
  obtain ⟨hc, hl⟩ := handsOf_cards hcs
  obtain ⟨t, ht⟩ := evaluate_category hc (by omega) (by omega)
  rw [ht]; simp

/-- Five cards: their own category. -/
theorem C69_rules_five : [1, 2, 3, 4, 5, 6, 7, 8, 9].map (fun c => (handsOf 5).countP (fun cs => category cs == c)) =
    [1302540, 1098240, 123552, 54912, 10200, 5108, 3744, 624, 40] := by
  rw [← C69_five]
  refine List.map_congr_left fun c _ => ?_
  refine List.countP_congr fun cs hcs => ?_
  obtain ⟨hc, hl⟩ := handsOf_cards hcs
  obtain ⟨⟨x, hx, hm⟩, h⟩ := C02_category hc (by omega) (by omega)
  have e : playable cs = [cs] := by
    rw [playable, hl, show min 5 5 = 5 from rfl, ← hl, List.sublistsLen_length]
  rw [e, List.mem_singleton] at hx
  subst hx
  rw [h x (by rw [e]; exact List.mem_singleton_self _) hm]

example : handsOf 2 ≠ [] ∧ [0, 1] ∈ handsOf 2 ∧ [1, 0] ∉ handsOf 2 := by decide +kernel
example : ∃! x, x ∈ handsOf 5 ∧ [51, 3, 17, 20, 8].Perm x := C69_hands (cs := [51, 3, 17, 20, 8]) (by decide)
/-- A hand of no cards would be counted as four of a kind (C02), so the number of cards matters. -/
example : categoryCounts [[]] = [0, 0, 0, 0, 0, 0, 0, 1, 0] := by decide +kernel

end Pokers
