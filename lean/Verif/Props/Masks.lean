import Verif.Props.EndToEnd
import Verif.Props.Hands
import Verif.Props.Threads
import Verif.Props.MonteCarlo
/-!
# Masks with bits that stand for no card (C84)

`exact_equity` and `approx_equity` take the board and the dead cards as `u64`.  The bits 52 to 63 stand for no card, and nothing
rejects them.  All other claims about the calculations hold for every `u64`, with the cards among the bits 0 to 51; this file says what
the remaining bits do.
-/
namespace Pokers
open Spec CombinedRange

/-- The mask without the bits that stand for no card. -/
def deckPart (m : Nat) : Nat := m % 2 ^ 52

theorem deckPart_testBit (m c : Nat) : (deckPart m).testBit c = (decide (c < 52) && m.testBit c) := Nat.testBit_mod_two_pow m 52 c

theorem deckPart_deck (m : Nat) : DeckMask (deckPart m) := Nat.mod_lt _ (by decide)

theorem deckPart_id {m : Nat} (h : DeckMask m) : deckPart m = m := Nat.mod_eq_of_lt h

theorem maskCards_deckPart (m : Nat) : maskCards (deckPart m) = maskCards m := by
  unfold maskCards
  apply List.filter_congr
  intro c hc
  rw [deckPart_testBit, decide_eq_true (List.mem_range.1 hc), Bool.true_and]

theorem countOnes_deckPart (m : Nat) : countOnes (deckPart m) = (maskCards m).length := by
  rw [← maskCards_length (deckPart_deck m), maskCards_deckPart]

theorem countOnes_deckPart_le (m : Nat) : countOnes (deckPart m) ≤ countOnes m := by
  rw [countOnes_deckPart]
  exact maskCards_length_le m

theorem remove_deckPart {r : List Combo} (hr : WfRange r) (b d : Nat) :
    removeConflictingCombos r (deckPart b) (deckPart d) = removeConflictingCombos r b d := by
  rw [C23_filter, C23_filter]
  apply List.filter_congr
  intro c hc
  obtain ⟨h1, h2, _⟩ := hr c hc
  simp only [deckPart_testBit, decide_eq_true h1, decide_eq_true h2, Bool.true_and]

variable {ranges : List (List Combo)} {b d nT nT' : Nat} {cancelled cancelled' stopped : Bool} {r r' : Results} {sent sent' : List Nat}

theorem remove_all_deckPart (hwf : ∀ r ∈ ranges, WfRange r) (b d : Nat) :
    (ranges.map fun h => removeConflictingCombos h (deckPart b) (deckPart d)) = ranges.map fun h => removeConflictingCombos h b d :=
  List.map_congr_left fun r hr => remove_deckPart (hwf r hr) b d

/-- C84: bits that stand for no card only tighten the validation: arguments that are accepted are accepted without those bits. -/
theorem C84_valid {n : Nat} (h : validate n b d = none) : validate n (deckPart b) (deckPart d) = none := by
  have h1 := countOnes_deckPart_le b
  have h2 := countOnes_deckPart_le d
  unfold validate at h ⊢
  by_cases g1 : n < MIN_PLAYERS
  · rw [if_pos g1] at h; cases h
  by_cases g2 : n > MAX_PLAYERS
  · rw [if_neg g1, if_pos g2] at h; cases h
  by_cases g3 : countOnes b > BOARD_CARDS
  · rw [if_neg g1, if_neg g2, if_pos g3] at h; cases h
  by_cases g4 : 2 * n + countOnes d + BOARD_CARDS > CARD_COUNT
  · rw [if_neg g1, if_neg g2, if_neg g3, if_pos g4] at h; cases h
  rw [if_neg g1, if_neg g2, if_neg (by omega), if_neg (by omega)]

/-- C84: apart from the limits on the numbers of cards, the arguments without those bits are treated in the same way: the same ranges after
card removal, the same combined ranges, the same fixed board, and the same decision whether the ranges conflict. -/
theorem C84_prepared (hwf : ∀ r ∈ ranges, WfRange r) (hv : validate ranges.length b d = none) :
    prepareExact ranges (deckPart b) (deckPart d) =
      (prepareExact ranges b d).map fun s => { s with boardMask := deckPart b, deadMask := deckPart d } := by
  unfold prepareExact
  rw [C84_valid hv, hv]
  simp only [remove_all_deckPart hwf]
  split
  · rfl
  · simp only [Except.map, Sim.new]
    rw [fixedBoard_eq, fixedBoard_eq b, maskCards_deckPart]

/-- C84: the same for `approx_equity`. -/
theorem C84_prepared_approx (hwf : ∀ r ∈ ranges, WfRange r) (hv : validate ranges.length b d = none) (res : Except SimulatorError Sim) :
    PrepareApprox ranges b d res →
    PrepareApprox ranges (deckPart b) (deckPart d) (res.map fun s => { s with boardMask := deckPart b, deadMask := deckPart d }) := by
  unfold PrepareApprox
  rw [C84_valid hv, hv]
  simp only [remove_all_deckPart hwf]
  split
  · rintro rfl; rfl
  · rintro ⟨crs, h1, rfl⟩
    refine ⟨crs, h1, ?_⟩
    simp only [Except.map, Sim.new]
    rw [fixedBoard_eq b, fixedBoard_eq (deckPart b), maskCards_deckPart]

/-- C84: a calculation that is not cancelled counts the same with and without those bits: the wins of every player, the counts of all
winner masks, and for every hand the wins, ties, total and tie share. -/
theorem C84_counts (hwf : ∀ r ∈ ranges, WfRange r) (hb : CardMask b) (hd : CardMask d) (hT : 0 < nT) (hT' : 0 < nT')
    (h : ExactEquity ranges b d nT cancelled false (.ok r) sent)
    (h' : ExactEquity ranges (deckPart b) (deckPart d) nT' cancelled' false (.ok r') sent') :
    (∀ p < ranges.length, r.wins p = r'.wins p) ∧ (∀ i < 2 ^ ranges.length, r.winsByMask i = r'.winsByMask i) ∧
    ∀ p < ranges.length, ∀ x < 52, ∀ y < 52, x ≠ y →
      let u := r.handResults (NUM_HANDS * p + getCardIndex x y)
      let u' := r'.handResults (NUM_HANDS * p + getCardIndex x y)
      u.wins = u'.wins ∧ u.ties = u'.ties ∧ u.total = u'.total ∧ u.correctedTies = u'.correctedTies := by
  have hb' := (deckPart_deck b).mask
  have hd' := (deckPart_deck d).mask
  obtain ⟨s, ds, total, size, flag, r0, hist, D, hrun, _⟩ := exact_run hwf hb hd h
  obtain ⟨s', ds', total', size', flag', r0', hist', D', hrun', _⟩ := exact_run hwf hb' hd' h'
  obtain ⟨_, _, _, hall⟩ := hrun.counts
  obtain ⟨_, _, _, hall'⟩ := hrun'.counts
  have h1 := (hall hT rfl).2
  have h2 := (hall' hT' rfl).2
  rw [maskCards_deckPart, maskCards_deckPart] at h2
  have hm : ∀ i < 2 ^ ranges.length, r.winsByMask i = r'.winsByMask i := fun i hi => by rw [h1.mask i hi, h2.mask i hi]
  refine ⟨fun p hp => ?_, hm, fun p hp x hx y hy hxy => ?_⟩
  · rw [h1.wins p hp, h2.wins p hp, hm _ (Nat.pow_lt_pow_right (by omega) hp)]
  · have e := (h1.hand p hp x hx y hy hxy).trans (h2.hand p hp x hx y hy hxy).symm
    exact ⟨congrArg (fun c : Cell => c.1) e, congrArg (fun c : Cell => c.2.1) e, congrArg (fun c : Cell => c.2.2.1) e,
      congrArg (fun c : Cell => c.2.2.2) e⟩

/-- C84: with up to eight players, and if no tie share is lost in integer divisions (C61), the equities are the same. -/
theorem C84_equities (hwf : ∀ r ∈ ranges, WfRange r) (hb : CardMask b) (hd : CardMask d) (hT : 0 < nT) (hT' : 0 < nT')
    (h8 : ranges.length ≤ 8) (hw : WholeShares ranges b d) (h : ExactEquity ranges b d nT cancelled false (.ok r) sent)
    (h' : ExactEquity ranges (deckPart b) (deckPart d) nT' cancelled' false (.ok r') sent') : r.equities = r'.equities := by
  have hb' := (deckPart_deck b).mask
  have hd' := (deckPart_deck d).mask
  have hw' : WholeShares ranges (deckPart b) (deckPart d) := by
    unfold WholeShares at hw ⊢
    rwa [maskCards_deckPart, maskCards_deckPart]
  obtain ⟨_, e1⟩ := C61_exact hwf hb hd hT h8 hw h
  obtain ⟨_, e2⟩ := C61_exact hwf hb' hd' hT' h8 hw' h'
  have l1 := equities_length hwf hb hd h
  have l2 := equities_length hwf hb' hd' h'
  rw [maskCards_deckPart, maskCards_deckPart] at e2
  apply List.ext_getElem?
  intro p
  by_cases hp : p < ranges.length
  · rw [e1 p hp, e2 p hp]
  · rw [List.getElem?_eq_none (by omega), List.getElem?_eq_none (by omega)]

/-- C84: with and without those bits the same hands are reported as valid, with the same weights. -/
theorem C84_weights (hwf : ∀ r ∈ ranges, WfRange r) (hdist : ∀ r ∈ ranges, DistinctHands r) (hb : CardMask b) (hd : CardMask d)
    (h : ExactEquity ranges b d nT cancelled stopped (.ok r) sent)
    (h' : ExactEquity ranges (deckPart b) (deckPart d) nT' cancelled' false (.ok r') sent') {p : Nat} (hp : p < ranges.length)
    {x y : Nat} (hx : x < 52) (hy : y < 52) (hxy : x ≠ y) :
    let u := r.handResults (NUM_HANDS * p + getCardIndex x y)
    let u' := r'.handResults (NUM_HANDS * p + getCardIndex x y)
    u.valid = u'.valid ∧ u.weight = u'.weight := by
  intro u u'
  obtain ⟨a1, a2, a3⟩ := C38_weights hwf hdist hb hd h hp hx hy hxy
  obtain ⟨b1, b2, b3⟩ := C38_weights hwf hdist (deckPart_deck b).mask (deckPart_deck d).mask h' hp hx hy hxy
  have hsame : ∀ w, Available ranges[p] (deckPart b) (deckPart d) x y w ↔ Available ranges[p] b d x y w := by
    intro w
    unfold Available
    rw [maskCards_deckPart, maskCards_deckPart]
  simp only [hsame] at b1 b2
  have hv : u.valid = u'.valid := by rw [Bool.eq_iff_iff, a1, b1]
  refine ⟨hv, ?_⟩
  by_cases hav : ∃ w, Available ranges[p] b d x y w
  · obtain ⟨w, hw⟩ := hav
    exact (a2 w hw).trans (b2 w hw).symm
  · have h1 : u.valid = false := by rw [← Bool.not_eq_true, a1]; exact hav
    exact (a3 h1).trans (b3 (hv ▸ h1)).symm

/-- C84: what does depend on those bits (finding).  Whether categories and draws are reported is decided by the number of bits of the
board mask, so with three or more bits they are reported even if fewer than three cards are on the board: the category
`evaluate` finds for the hole cards and those cards. -/
theorem C84_category (hwf : ∀ r ∈ ranges, WfRange r) (hdist : ∀ r ∈ ranges, DistinctHands r) (hb : CardMask b) (hd : CardMask d)
    (h : ExactEquity ranges b d nT cancelled stopped (.ok r) sent) {p : Nat} (hp : p < ranges.length) {x y : Nat} (hx : x < 52)
    (hy : y < 52) (hxy : x ≠ y) {w : Nat} (hav : Available ranges[p] b d x y w) :
    (r.handResults (NUM_HANDS * p + getCardIndex x y)).rank =
      if 3 ≤ countOnes b then categoryOfScore (ofCards (maskCards b ++ [x, y])).evaluate else 255 := by
  obtain ⟨_, _, _, _, _, _, _, hc⟩ := exact_calc hwf hb hd h
  obtain ⟨c, hc1, _, he⟩ := (hc.hand_info hdist hp hx hy hxy).1 w hav
  have hr : (r.handResults (NUM_HANDS * p + getCardIndex x y)).rank = rankInfo b c := congrArg HandInfo.rank he
  rw [hr, rankInfo]
  have hperm : (maskCards b ++ [c.c1, c.c2]).Perm (maskCards b ++ [x, y]) := by
    rcases hc1 with ⟨rfl, rfl⟩ | ⟨rfl, rfl⟩
    · exact .refl _
    · exact (List.Perm.swap ..).append_left _
  rw [C03_perm hperm]
  rfl

/-- Three bits that stand for no card. -/
def foreignBits : Nat := 7 <<< 52

theorem foreign_mask : CardMask foreignBits := by unfold CardMask; decide

/-- C84 (finding): aces against kings before the flop.  With three bits that stand for no card in the board mask the calculation runs, and
reports the aces as a pair on a board of no cards; with six such bits it is rejected, although there is no card on the board. -/
theorem C84_before_the_flop (nT : Nat) :
    maskCards foreignBits = [] ∧ (∃ r sent, ExactEquity twoHands foreignBits 0 nT false false (.ok r) sent) ∧
    (∀ r sent, ExactEquity twoHands foreignBits 0 nT false false (.ok r) sent →
      (r.handResults (getCardIndex 50 51)).rank = 1) ∧
    (∀ r sent, ExactEquity twoHands (deckPart foreignBits) 0 nT false false (.ok r) sent →
      (r.handResults (getCardIndex 50 51)).rank = 255) ∧
    prepareExact twoHands (63 <<< 52) 0 = .error .TooManyBoardCards := by
  have hwf : ∀ r ∈ twoHands, WfRange r := by unfold WfRange twoHands; decide
  have hds : ∀ r ∈ twoHands, DistinctHands r := by unfold DistinctHands twoHands; decide
  refine ⟨by decide, ?_, ?_, ?_, rfl⟩
  · exact run_exists' hwf foreign_mask (by unfold CardMask; decide) (by decide +kernel) (by decide +kernel) (by decide +kernel) nT false
  · intro r sent h
    have := C84_category hwf hds foreign_mask (by unfold CardMask; decide) h (p := 0) (by decide) (x := 50) (y := 51) (by decide)
      (by decide) (by decide) (w := 100) (by unfold Available twoHands; decide +kernel)
    rw [Nat.mul_zero, Nat.zero_add] at this
    rw [this, if_pos (by decide)]
    decide +kernel
  · intro r sent h
    have := C84_category hwf hds (deckPart_deck _).mask (by unfold CardMask; decide) h (p := 0) (by decide) (x := 50) (y := 51) (by decide)
      (by decide) (by decide) (w := 100) (by unfold Available twoHands; decide +kernel)
    rw [Nat.mul_zero, Nat.zero_add] at this
    rw [this, if_neg (by decide)]

end Pokers
