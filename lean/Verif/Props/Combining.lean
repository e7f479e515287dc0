import Verif.Proofs.Smallest
import Verif.Props.Stopping
/-!
Theorems about which ranges `from_ranges` combines.
-/
namespace Pokers

open CombinedRange Spec

/-! ## C66 -/

/-- C66: the estimate of the size of a join is its size, in either order: the number of pairs of combos without a common card. -/
theorem C66_estimate (a b : CombinedRange) :
    estimateJoinSize a b = (join a b).size ∧ estimateJoinSize a b = (join b a).size ∧
    (join a b).size = ((a.combos ×ˢ b.combos).filter fun x => x.1.mask &&& x.2.mask = 0).length := by
  refine ⟨by rw [estimate_join, join_size, join_size, pairCount_comm], estimate_join a b, ?_⟩
  rw [join_size]
  unfold pairCount
  generalize a.combos = l
  induction l with
  | nil => rfl
  | cons c l ih =>
    rw [List.map_cons, List.sum_cons, ih, List.product_cons, List.filter_append, List.length_append, List.filter_map, List.length_map,
      List.countP_eq_length_filter]
    rfl

/-- C66: an iteration joins two different ranges whose join is the smallest of all. -/
theorem C66_smallest (crs : List CombinedRange) (h : (bestPair crs).1 < MAX_SIZE) :
    let i := (bestPair crs).2.1
    let j := (bestPair crs).2.2
    j < i ∧ i < crs.length ∧ (bestPair crs).1 = (join (crs.getD j default) (crs.getD i default)).size ∧
    ∀ i' < crs.length, ∀ j' < i', (join (crs.getD j default) (crs.getD i default)).size ≤
      (join (crs.getD j' default) (crs.getD i' default)).size := by
  obtain ⟨h1, h2, h3⟩ := bestPair_spec crs (Nat.lt_trans h (by decide))
  exact ⟨h1, h2, by rw [h3, estimate_join], fun i' hi' j' hj' => bestPair_smallest crs h hi' hj'⟩

/-- C66: no two of the final combined ranges could be joined to a range of fewer than 10000 combos. -/
theorem C66_final (ranges : List (List Combo)) {i j : Nat} (hi : i < (fromRanges ranges).length) (hj : j < i) :
    10000 ≤ (join ((fromRanges ranges)[j]'(by omega)) (fromRanges ranges)[i]).size := by
  rw [join_size]
  exact final_pairs ranges hi hj

/-- C66: a combined range of several players has fewer than 10000 combos, one of a single player has the combos of the player's range. -/
theorem C66_sizes (ranges : List (List Combo)) : ∀ cr ∈ fromRanges ranges, cr.playerCount = 1 ∨ cr.size < 10000 := by
  refine combineLoop_size _ _ (fun cr hcr => ?_)
  obtain ⟨i, hi, rfl⟩ := List.getElem_of_mem hcr
  left
  rw [List.getElem_mapIdx]
  rfl

/-- C66: if the numbers of combos of the players multiply to fewer than 10000, a single combined range remains. -/
theorem C66_single {ranges : List (List Combo)} (h0 : ranges ≠ []) (h : (ranges.map List.length).prod < 10000) :
    (fromRanges ranges).length = 1 := fromRanges_single h0 h

/-- C66: two ranges stay separate exactly if they have at least 10000 compatible pairs of hands. -/
theorem C66_two (r1 r2 : List Combo) :
    (fromRanges [r1, r2]).length = if 10000 ≤ (join (fromRange r1 0) (fromRange r2 1)).size then 2 else 1 := by
  have hb : (bestPair [fromRange r1 0, fromRange r2 1]).1 = min (2 ^ 64 - 1) (join (fromRange r1 0) (fromRange r2 1)).size := by
    have e : (bestPair [fromRange r1 0, fromRange r2 1]) =
        if estimateJoinSize (fromRange r2 1) (fromRange r1 0) < 2 ^ 64 - 1 then (estimateJoinSize (fromRange r2 1) (fromRange r1 0), 1, 0)
        else (2 ^ 64 - 1, 0, 0) := rfl
    rw [e, estimate_join]
    split
    · exact (Nat.min_eq_right (by omega)).symm
    · exact (Nat.min_eq_left (by omega)).symm
  have e : fromRanges [r1, r2] = if (bestPair [fromRange r1 0, fromRange r2 1]).1 < MAX_SIZE then
      combineLoop 1 (joinAt [fromRange r1 0, fromRange r2 1] (bestPair [fromRange r1 0, fromRange r2 1]).2.1
        (bestPair [fromRange r1 0, fromRange r2 1]).2.2) else [fromRange r1 0, fromRange r2 1] := rfl
  have hM : MAX_SIZE = 10000 := rfl
  by_cases h : 10000 ≤ (join (fromRange r1 0) (fromRange r2 1)).size
  · rw [if_pos h, e, if_neg (by rw [hb, hM]; omega)]
    rfl
  · rw [if_neg h]
    have hb' : (bestPair [fromRange r1 0, fromRange r2 1]).1 < MAX_SIZE := by rw [hb, hM]; omega
    obtain ⟨h1, h2, _⟩ := bestPair_spec _ (Nat.lt_trans hb' (by decide))
    have h1' : (bestPair [fromRange r1 0, fromRange r2 1]).2.1 = 1 ∧ (bestPair [fromRange r1 0, fromRange r2 1]).2.2 = 0 := by
      have h2 : (bestPair [fromRange r1 0, fromRange r2 1]).2.1 < 2 := h2
      omega
    rw [e, if_pos hb', h1'.1, h1'.2]
    have hs : ∀ cr : CombinedRange, (combineLoop 1 [cr]).length = 1 := by
      intro cr
      have : (bestPair [cr]).1 = 2 ^ 64 - 1 := rfl
      have e : combineLoop 1 [cr] = if (bestPair [cr]).1 < MAX_SIZE then combineLoop 0 (joinAt [cr] (bestPair [cr]).2.1 (bestPair [cr]).2.2)
        else [cr] := rfl
      rw [e, if_neg (by rw [this, hM]; decide)]
      rfl
    exact hs _

/-- Two players with the hands A♠ A♥ and 2♠ 2♥: one pair, so they are combined; the third player with the same two hands as the
second and one more is joined next, to the only deal in which all hold different cards. -/
example : (fromRanges [[⟨49, 48, 100⟩], [⟨1, 0, 100⟩], [⟨1, 0, 100⟩, ⟨5, 4, 100⟩]]).map (fun cr => (cr.playerCount, cr.size)) =
    [(3, 1)] := by decide +kernel
/-- Two ranges of 147 hands have at least 10000 compatible pairs and stay separate. -/
example : (fromRanges [spreadRange, spreadRange]).length = 2 := by
  rw [C66_two, if_pos]
  rw [← (C66_estimate _ _).1]
  decide +kernel

end Pokers
