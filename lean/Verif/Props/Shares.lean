import Verif.Props.Rates
/-!
# C61: when the reported equities are exact

The update of the results divides the counts of shared pots with integer division (`C34_integer_division`).  Nothing is lost if in
every showdown the weight of the deal is a multiple of the number of winners.
-/
namespace Pokers
open Spec CombinedRange
open Finset (range)

variable {ranges : List (List Combo)} {b d nT : Nat} {cancelled stopped : Bool} {r : Results} {sent : List Nat} {sqrt : ℚ → ℚ}
  {target : ℚ} {ex : Bool} {s : Sim} {flag : Nat} {r0 : Results} {hist : List (Batch × HandStats)} {sd : Shows}

/-- In every showdown the weight of the deal is a multiple of the number of winners. -/
def WholeShares (ranges : List (List Combo)) (b d : Nat) : Prop :=
  ∀ x ∈ showdowns (specRanges ranges) (maskCards b) (maskCards d), (winners x.2 x.1).length ∣ Spec.dealWeight x.1

/-- The weight of the showdowns with a property is a multiple of a number if all their weights are. -/
theorem dvd_weightOf {sd : Shows} {P : List WHand × List Nat → Prop} [DecidablePred P] {k : Nat}
    (h : ∀ x ∈ sd, P x → k ∣ Spec.dealWeight x.1) : k ∣ weightOf sd P := by
  unfold weightOf
  apply List.dvd_sum
  intro y hy
  obtain ⟨x, hx, rfl⟩ := List.mem_map.1 hy
  rw [List.mem_filter, decide_eq_true_iff] at hx
  exact h x hx.1 hx.2

theorem Calc.whole (h : Calc sqrt ex ranges b d r s flag r0 hist sd) (h8 : ranges.length ≤ 8) (hd : WholeShares ranges b d)
    {x : Batch × HandStats} (hx : x ∈ hist) {i : Nat} (hi : i < 2 ^ ranges.length) : countOnes i ∣ x.1.winsByMask i := by
  obtain ⟨sd', h1, h2⟩ := h.batches x hx
  rw [h2 i hi]
  apply dvd_weightOf
  intro y hy he
  have hl := showdowns_length h.wf y (h1 y hy)
  have := (u8Mask_eq_iff (B := y.2) (d := y.1) (by omega) (by rw [hl]; exact hi)).1 he
  rw [hl] at this
  have hlen := maskPlayers_length hi (by omega)
  rw [← this] at hlen
  rw [← hlen]
  exact hd y (h1 y hy)

/-- C61 for both calculations: the ties are the exact shares of the counted showdowns, and the equities the exact equities. -/
theorem Calc.exact_shares (h : Calc sqrt ex ranges b d r s flag r0 hist sd) (h8 : ranges.length ≤ 8) (hd : WholeShares ranges b d) :
    (∀ p < ranges.length, r.ties p = sharesOf sd p) ∧
    ∀ p < ranges.length, r.equities[p]? = some (fdiv ((winsOf sd [p] : ℚ) + sharesOf sd p) (totalWeight sd : ℚ)) := by
  have hn := h.players
  have hl : ∀ x ∈ sd, x.1.length = ranges.length := fun x hx => (h.deals x hx).2
  have hties : ∀ p < ranges.length, r.ties p = sharesOf sd p := by
    intro p hp
    rw [← h.counts.share hl h8 hp, h.ties (by rw [hn]; exact hp), hn]
    unfold exactShare
    have e : ∀ i ∈ range (2 ^ ranges.length), (if i.testBit p = true ∧ countOnes i ≠ 1 then (r.winsByMask i : ℚ) / (countOnes i : ℚ) else 0) =
        (hist.map fun x => maskTies x.1 p i).sum := by
      intro i hi
      rw [Finset.mem_range] at hi
      rw [h.masks (by rw [hn]; exact hi)]
      have hw : ∀ x ∈ hist, countOnes i ∣ x.1.winsByMask i := fun x hx => h.whole h8 hd hx hi
      clear h
      induction hist with
      | nil => simp
      | cons x L ih =>
        have ih := ih (fun y hy => hw y (by simp [hy]))
        rw [List.map_cons, List.sum_cons, List.map_cons, List.sum_cons, ← ih]
        unfold maskTies tieShare
        split
        · rename_i hc
          have hpos := countOnes_pos (by omega) hc.1
          obtain ⟨k, hk⟩ := hw x (by simp)
          have hq : (countOnes i : ℚ) ≠ 0 := by exact_mod_cast hpos.ne'
          rw [hk, Nat.mul_div_cancel_left _ hpos]
          push_cast
          field_simp
        · simp
    rw [Finset.sum_congr rfl e]
    clear e h
    induction hist with
    | nil => simp
    | cons x L ih => simp only [List.map_cons, List.sum_cons, ih, Finset.sum_add_distrib]
  refine ⟨hties, fun p hp => ?_⟩
  rw [h.equities, hn, getEquity_eq]
  have hwin : ∀ q < ranges.length, r.wins q = winsOf sd [q] := h.counts.playerWins hl h8
  have hS : ∑ q ∈ range ranges.length, ((r.wins q : ℚ) + r.ties q) = (totalWeight sd : ℚ) := by
    have h2 := h.many
    rw [← shares_sum hl (by omega)]
    refine Finset.sum_congr rfl fun q hq => ?_
    rw [hwin q (Finset.mem_range.1 hq), hties q (Finset.mem_range.1 hq)]
  rw [hS, List.getElem?_map, List.getElem?_range hp, Option.map_some, hwin p hp, hties p hp]

/-- C61: if every showdown of a deal can be shared without remainder, `exact_equity` with up to eight players and without cancellation
reports the exact equities: wins plus shares of ties over all showdowns divided by their total weight. -/
theorem C61_exact (hwf : ∀ r ∈ ranges, WfRange r) (hb : CardMask b) (hd : CardMask d) (hT : 0 < nT) (h8 : ranges.length ≤ 8)
    (hw : WholeShares ranges b d) (h : ExactEquity ranges b d nT cancelled false (.ok r) sent) :
    let sd := showdowns (specRanges ranges) (maskCards b) (maskCards d)
    (∀ p < ranges.length, r.ties p = sharesOf sd p) ∧
    ∀ p < ranges.length, r.equities[p]? = some (fdiv ((winsOf sd [p] : ℚ) + sharesOf sd p) (totalWeight sd : ℚ)) := by
  intro sd
  obtain ⟨s, ds, total, size, flag, r0, hist, D, hrun, hlen⟩ := exact_run hwf hb hd h
  obtain ⟨_, _, hcalc⟩ := hrun.calc
  obtain ⟨_, _, _, hall⟩ := hrun.counts
  have hc := (hall hT rfl).2
  have : Calc id s.calcExact ranges b d r s flag r0 hist sd :=
    { hcalc with counts := hc, legal := fun x hx => (legal_iff.2 hx).1 }
  exact this.exact_shares h8 hw

/-- C61: under the same condition the equities of `approx_equity` are the exact equities of the showdowns it evaluated. -/
theorem C61_approx (hwf : ∀ r ∈ ranges, WfRange r) (hb : CardMask b) (hd : CardMask d) (h8 : ranges.length ≤ 8)
    (hw : WholeShares ranges b d) (h : ApproxEquity sqrt ranges b d nT target cancelled (.ok r) sent) :
    ∃ sd : List (List WHand × List Nat), (∀ x ∈ sd, x ∈ showdowns (specRanges ranges) (maskCards b) (maskCards d)) ∧
      r.evalCount = sd.length ∧ (∀ p < ranges.length, r.ties p = sharesOf sd p) ∧
      ∀ p < ranges.length, r.equities[p]? = some (fdiv ((winsOf sd [p] : ℚ) + sharesOf sd p) (totalWeight sd : ℚ)) := by
  obtain ⟨s, flag, r0, hist, sd, hrun, _⟩ := approx_run hwf hb hd h
  exact ⟨sd, fun x hx => legal_iff.1 (hrun.legal x hx), hrun.counts.2, hrun.calc.exact_shares h8 hw⟩

/-- The condition holds if one player's percentages are all multiples of all numbers up to the number of players. -/
theorem C61_multiples (hwf : ∀ r ∈ ranges, WfRange r) {p : Nat} (hp : p < ranges.length)
    (hm : ∀ c ∈ ranges[p], ∀ k, 1 ≤ k → k ≤ ranges.length → k ∣ c.w) : WholeShares ranges b d := by
  intro x hx
  obtain ⟨hdd, hB⟩ := legal_iff.2 hx
  obtain ⟨hl, hw, hcards, hlegal⟩ := deals_wf hwf hdd
  have hlen : (winners x.2 x.1).length ≤ ranges.length := by
    unfold winners
    exact (List.length_filter_le _ _).trans (by rw [List.length_range, hl])
  have hpos : 1 ≤ (winners x.2 x.1).length := by
    rw [Nat.one_le_iff_ne_zero, Ne, List.length_eq_zero_iff]
    exact winners_ne_nil (by omega)
  unfold deals at hdd
  rw [List.mem_filter] at hdd
  obtain ⟨c1, c2⟩ := (mem_choices _ _).1 hdd.1
  have hpx : p < x.1.length := by omega
  have hmem := c2 p hpx (by rw [← c1]; exact hpx)
  have : (winners x.2 x.1).length ∣ (x.1[p]).2.2 := by
    unfold specRanges at hmem
    rw [List.getElem_map] at hmem
    obtain ⟨c, hc, e⟩ := List.mem_map.1 hmem
    rw [← e]
    exact hm c hc _ hpos hlen
  refine this.trans ?_
  unfold Spec.dealWeight
  apply List.dvd_prod
  exact List.mem_map.2 ⟨x.1[p], List.getElem_mem _, rfl⟩

/-- Two players: it is enough that one player's percentages are all even, for example that all are 100. -/
theorem C61_two_players (hwf : ∀ r ∈ ranges, WfRange r) (h2 : ranges.length = 2) {p : Nat} (hp : p < ranges.length)
    (hm : ∀ c ∈ ranges[p], 2 ∣ c.w) : WholeShares ranges b d := by
  apply C61_multiples hwf hp
  intro c hc k h1 hk
  have : k = 1 ∨ k = 2 := by omega
  rcases this with rfl | rfl
  · exact one_dvd _
  · exact hm c hc

/-- Aces against kings on a flop with the weights 100 and 50: the hypotheses of `C61_exact` are met, and the equity of the aces is the
exact number. -/
example (nT : Nat) (hT : 0 < nT) : ∃ r sent, ExactEquity twoHands flopMask 0 nT false false (.ok r) sent ∧
    let sd := showdowns (specRanges twoHands) (maskCards flopMask) (maskCards 0)
    r.equities[0]? = some (fdiv ((winsOf sd [0] : ℚ) + sharesOf sd 0) (totalWeight sd : ℚ)) := by
  obtain ⟨r, sent, h⟩ := two_run nT false
  have hwf : ∀ r ∈ twoHands, WfRange r := by unfold WfRange twoHands; decide
  exact ⟨r, sent, h, (C61_exact hwf (by unfold CardMask; decide) (by unfold CardMask; decide) hT (by decide)
    (C61_two_players hwf rfl (p := 0) (by decide) (by decide)) h).2 0 (by decide)⟩

/-! ## Three players with the default weights -/

/-- The four nines and a two on the board. -/
def ninesMask : Nat := 1 <<< 28 ||| 1 <<< 29 ||| 1 <<< 30 ||| 1 <<< 31 ||| 1 <<< 0

/-- Three hands with an ace; the third player may also have a king instead.  All have the default weight. -/
def kickerHands : List (List Combo) := [[⟨48, 4, 100⟩], [⟨49, 5, 100⟩], [⟨50, 6, 100⟩, ⟨46, 6, 100⟩]]

theorem kicker_wf : ∀ r ∈ kickerHands, WfRange r := by unfold WfRange kickerHands; decide
theorem nines_deck : CardMask ninesMask := by unfold CardMask; decide

theorem kicker_run (nT : Nat) (cancelled : Bool) : ∃ r sent, ExactEquity kickerHands ninesMask 0 nT cancelled cancelled (.ok r) sent :=
  run_exists' kicker_wf nines_deck zero_deck (by decide +kernel) (by decide +kernel) (by decide +kernel) nT cancelled

theorem kicker_shows : (showdowns (specRanges kickerHands) (maskCards ninesMask) (maskCards 0)).map
    (fun x => (winners x.2 x.1, Spec.dealWeight x.1)) = [([0, 1, 2], 1000000), ([0, 1], 1000000)] := by decide +kernel

theorem sum_div_single {W k : Nat} (hW : 0 < W) : ∀ (L : List Nat), (∀ x ∈ L, W ∣ x) → L.sum ≤ W → (L.map (· / k)).sum = L.sum / k := by
  intro L
  induction L with
  | nil => intro _ _; simp
  | cons x L ih =>
    intro hL hs
    rw [List.map_cons, List.sum_cons, List.sum_cons]
    rw [List.sum_cons] at hs
    obtain ⟨a, ha⟩ := hL x (by simp)
    rw [ih (fun y hy => hL y (by simp [hy])) (by omega)]
    obtain ⟨c, hc⟩ : W ∣ L.sum := List.dvd_sum fun y hy => hL y (by simp [hy])
    rcases Nat.eq_zero_or_pos a with rfl | h1
    · rw [ha]; simp
    · have : c = 0 := by
        rcases Nat.eq_zero_or_pos c with h | h2
        · exact h
        · have e1 : W ≤ x := by rw [ha]; exact Nat.le_mul_of_pos_right _ h1
          have e2 : W ≤ L.sum := by rw [hc]; exact Nat.le_mul_of_pos_right _ h2
          omega
      rw [hc, this]; simp

/-- If all weights are multiples of `W` and no count of a shared pot is more than `W`, the ties do not depend on the flushes. -/
theorem Calc.single_ties (h : Calc sqrt ex ranges b d r s flag r0 hist sd) {W : Nat} (hW : 0 < W)
    (hd : ∀ x ∈ showdowns (specRanges ranges) (maskCards b) (maskCards d), W ∣ Spec.dealWeight x.1)
    (hle : ∀ i < 2 ^ ranges.length, r.winsByMask i ≤ W) {p : Nat} (hp : p < ranges.length) :
    r.ties p = ((∑ i ∈ range (2 ^ ranges.length), if i.testBit p = true ∧ countOnes i ≠ 1 then r.winsByMask i / countOnes i else 0 : Nat) : ℚ) := by
  have hn := h.players
  rw [h.ties (by rw [hn]; exact hp), hn, Nat.cast_sum]
  have e : ∀ i ∈ range (2 ^ ranges.length), (((if i.testBit p = true ∧ countOnes i ≠ 1 then r.winsByMask i / countOnes i else 0 : Nat)) : ℚ) =
      (hist.map fun x => maskTies x.1 p i).sum := by
    intro i hi
    rw [Finset.mem_range] at hi
    have hm := h.masks (i := i) (by rw [hn]; exact hi)
    have hs := sum_div_single (k := countOnes i) hW (hist.map fun x => x.1.winsByMask i) (fun y hy => by
      obtain ⟨x, hx, rfl⟩ := List.mem_map.1 hy
      obtain ⟨sd', h1, h2⟩ := h.batches x hx
      rw [h2 i hi]
      exact dvd_weightOf fun y hy _ => hd y (h1 y hy)) (by rw [← hm]; exact hle i hi)
    unfold maskTies tieShare
    by_cases hc : i.testBit p = true ∧ countOnes i ≠ 1
    · rw [if_pos hc, hm, ← hs, List.map_map, Nat.cast_list_sum, List.map_map]
      congr 1
      apply List.map_congr_left
      intro x _
      rw [if_pos hc]
      rfl
    · rw [if_neg hc]
      simp [hc]
  rw [Finset.sum_congr rfl e]
  clear e h
  induction hist with
  | nil => simp
  | cons x L ih => simp only [List.map_cons, List.sum_cons, ih, Finset.sum_add_distrib]

theorem kicker_counts : (∀ i < 8, winsOf (showdowns (specRanges kickerHands) (maskCards ninesMask) (maskCards 0)) (maskPlayers 3 i) =
      if i = 3 ∨ i = 7 then 1000000 else 0) ∧
    (∀ p < 3, winsOf (showdowns (specRanges kickerHands) (maskCards ninesMask) (maskCards 0)) [p] = 0 ∧
      sharesOf (showdowns (specRanges kickerHands) (maskCards ninesMask) (maskCards 0)) p = if p = 2 then 1000000 / 3 else 2500000 / 3) ∧
    totalWeight (showdowns (specRanges kickerHands) (maskCards ninesMask) (maskCards 0)) = 2000000 ∧
    ∀ x ∈ showdowns (specRanges kickerHands) (maskCards ninesMask) (maskCards 0), 1000000 ∣ Spec.dealWeight x.1 := by decide +kernel

/-- C61 (finding): three players with the default weights.  The exact equities are 5/12, 5/12 and 1/6; every run reports
833333/1999999, 833333/1999999 and 333333/1999999. -/
theorem C61_three_players (nT : Nat) (hT : 0 < nT) :
    (∃ r sent, ExactEquity kickerHands ninesMask 0 nT false false (.ok r) sent) ∧
    (let sd := showdowns (specRanges kickerHands) (maskCards ninesMask) (maskCards 0)
     (List.range 3).map (fun p => ((winsOf sd [p] : ℚ) + sharesOf sd p) / (totalWeight sd : ℚ)) = [5 / 12, 5 / 12, 1 / 6]) ∧
    ∀ cancelled r sent, ExactEquity kickerHands ninesMask 0 nT cancelled false (.ok r) sent →
      r.equities = [some (833333 / 1999999), some (833333 / 1999999), some (333333 / 1999999)] := by
  obtain ⟨k1, k2, k3, k4⟩ := kicker_counts
  refine ⟨kicker_run nT false, ?_, ?_⟩
  · intro sd
    have e : ∀ p < 3, ((winsOf sd [p] : ℚ) + sharesOf sd p) / (totalWeight sd : ℚ) = if p = 2 then 1 / 6 else 5 / 12 := by
      intro p hp
      rw [(k2 p hp).1, (k2 p hp).2, k3]
      split <;> norm_num
    rw [show List.range 3 = [0, 1, 2] from rfl]
    simp only [List.map_cons, List.map_nil]
    rw [e 0 (by decide), e 1 (by decide), e 2 (by decide)]
    simp
  · intro cancelled r sent h
    have hm := C31_masks kicker_wf nines_deck zero_deck hT (by decide) h
    have hmask : ∀ i < 8, r.winsByMask i = if i = 3 ∨ i = 7 then 1000000 else 0 := fun i hi => (hm.1 i hi).trans (k1 i hi)
    have hwins : ∀ p < 3, r.wins p = 0 := fun p hp => (hm.2 p hp).trans (k2 p hp).1
    obtain ⟨_, _, _, _, _, _, _, hcalc⟩ := exact_calc kicker_wf nines_deck zero_deck h
    have ht : ∀ p < 3, r.ties p = if p = 2 then 333333 else 833333 := by
      intro p hp
      rw [hcalc.single_ties (W := 1000000) (by decide) k4 (fun i hi => by rw [hmask i hi]; split <;> decide) hp]
      have e : ∀ i ∈ range (2 ^ kickerHands.length), (if i.testBit p = true ∧ countOnes i ≠ 1 then r.winsByMask i / countOnes i else 0) =
          if i.testBit p = true ∧ countOnes i ≠ 1 then (if i = 3 ∨ i = 7 then 1000000 else 0) / countOnes i else 0 := by
        intro i hi
        rw [hmask i (Finset.mem_range.1 hi)]
      rw [Finset.sum_congr rfl e]
      have hp' : p = 0 ∨ p = 1 ∨ p = 2 := by omega
      rcases hp' with rfl | rfl | rfl
      · exact_mod_cast (by decide +kernel : (∑ i ∈ range (2 ^ kickerHands.length), if i.testBit 0 = true ∧ countOnes i ≠ 1 then
          (if i = 3 ∨ i = 7 then 1000000 else 0) / countOnes i else 0) = 833333)
      · exact_mod_cast (by decide +kernel : (∑ i ∈ range (2 ^ kickerHands.length), if i.testBit 1 = true ∧ countOnes i ≠ 1 then
          (if i = 3 ∨ i = 7 then 1000000 else 0) / countOnes i else 0) = 833333)
      · exact_mod_cast (by decide +kernel : (∑ i ∈ range (2 ^ kickerHands.length), if i.testBit 2 = true ∧ countOnes i ≠ 1 then
          (if i = 3 ∨ i = 7 then 1000000 else 0) / countOnes i else 0) = 333333)
    have hn : kickerHands.length = 3 := rfl
    rw [hcalc.equities, hcalc.players, hn, getEquity_eq]
    have hS : ∑ q ∈ range 3, ((r.wins q : ℚ) + r.ties q) = 1999999 := by
      rw [Finset.sum_range_succ, Finset.sum_range_succ, Finset.sum_range_succ, Finset.sum_range_zero]
      rw [hwins 0 (by decide), hwins 1 (by decide), hwins 2 (by decide), ht 0 (by decide), ht 1 (by decide), ht 2 (by decide)]
      norm_num
    rw [hS, show List.range 3 = [0, 1, 2] from rfl]
    simp only [List.map_cons, List.map_nil]
    rw [hwins 0 (by decide), hwins 1 (by decide), hwins 2 (by decide), ht 0 (by decide), ht 1 (by decide), ht 2 (by decide)]
    unfold fdiv
    norm_num

end Pokers
