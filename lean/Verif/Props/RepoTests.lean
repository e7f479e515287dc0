import Verif.Props.Shares
import Verif.Props.Range
import Verif.Proofs.HeadsUp
/-!
# C62: the crate's own tests

The values that the unit tests of the crate expect, for the model: a check of the model against the code, and stronger than the tests
because the calculations are covered for every schedule and every number of threads.
-/
namespace Pokers
open Spec CombinedRange Kernel

/-- Lower case for ASCII letters. -/
abbrev asciiLower : List Char → List Char := List.map Char.toLower

/-! ## Hands (src/hand_evaluator/hand.rs:346-395) -/

/-- `test_card_constants`, `test_from_hole_cards`, `test_rank_key`, `test_flush_key`, `test_has_flush`, `test_suit_count` -/
theorem C62_hands :
    ((CARDS 0).mask = 1 <<< 48 ∧ (CARDS 0).count = 1 ∧ (CARDS 0).hasFlush = false) ∧
    ((Hand.fromHoleCards 0 1).count = 2 ∧ (Hand.fromHoleCards 0 1).hasFlush = false) ∧
    (Hand.fromHoleCards 0 1).getRankKey = RANKS.getD 0 0 + RANKS.getD 0 0 ∧
    ((Hand.default + CARDS 0 + CARDS 4 + CARDS 8 + CARDS 12 + CARDS 16).getFlushKey = 0b11111 ∧
      (Hand.default + CARDS 0 + CARDS 4 + CARDS 8 + CARDS 12).getFlushKey = 0) ∧
    ((Hand.default + CARDS 0 + CARDS 8 + CARDS 12 + CARDS 16 + CARDS 20).hasFlush = true ∧
      (Hand.default + CARDS 0 + CARDS 8 + CARDS 12 + CARDS 16 + CARDS 21).hasFlush = false) ∧
    ((Hand.default + CARDS 0 + CARDS 8 + CARDS 12 + CARDS 16 + CARDS 21).suitCount 0 = 4 ∧
      (Hand.default + CARDS 1 + CARDS 9 + CARDS 13).suitCount 1 = 3) := by decide +kernel

/-! ## Division (src/fastdivide.rs:196-256) -/

/-- `test_divide_op`, `test_divide_by_4`, `test_divide_by_7`, `test_divide_by_11`, `test_floor_log2`; `test_libdivide` is part of
`C25_divide_exact`. -/
theorem C62_division :
    ((DividerU64.divideBy 2).bind (·.divide 4) = some 2 ∧ (DividerU64.divideBy 2).bind (·.divide 8) = some 4) ∧
    DividerU64.divideBy 4 = some (.BitShift 2) ∧ (∃ m s, DividerU64.divideBy 7 = some (.General m s)) ∧
    DividerU64.divideBy 11 = some (.Fast 13415813871788764812 3) ∧
    ∀ i ∈ [1, 2, 3, 4, 10, 15, 16, 31, 32, 33, 2 ^ 64 - 1], ∃ l, floorLog2 i = some l ∧ 1 <<< l ≤ i ∧ i ≤ (1 <<< l) - 1 + (1 <<< l) := by
  refine ⟨by decide +kernel, by decide +kernel, ⟨2635249153387078803, 2, by decide +kernel⟩, by decide +kernel, ?_⟩
  have h : ∀ i ∈ [1, 2, 3, 4, 10, 15, 16, 31, 32, 33, 2 ^ 64 - 1], floorLog2 i = some (Nat.log2 i) ∧
      1 <<< Nat.log2 i ≤ i ∧ i ≤ (1 <<< Nat.log2 i) - 1 + (1 <<< Nat.log2 i) := by decide +kernel
  exact fun i hi => ⟨_, h i hi⟩

/-! ## Ranges (src/hand_range.rs:596-708) -/

/-- Removing duplicates keeps one hand for each pair of cards. -/
theorem removeDuplicates_length {l : List Combo} (hb : ∀ c ∈ l, c.c1 < 256 ∧ c.c2 < 256) :
    (removeDuplicates l).length = (l.map fun c => (c.c1, c.c2)).dedup.length := by
  rw [← List.length_map (f := fun c : Combo => (c.c1, c.c2))]
  apply List.Perm.length_eq
  rw [List.perm_ext_iff_of_nodup]
  · rintro ⟨x, y⟩
    rw [List.mem_dedup, List.mem_map, List.mem_map]
    constructor
    · rintro ⟨c, hc, h⟩
      exact ⟨c, mem_removeDuplicates_of hc, h⟩
    · rintro ⟨c, hc, h⟩
      obtain ⟨rfl, rfl⟩ := Prod.mk.inj h
      cases hf : l.find? (Combo.same c.c1 c.c2) with
      | none => exact absurd (List.find?_eq_none.1 hf c hc) (by simp [Combo.same])
      | some e =>
        have he : e.c1 = c.c1 ∧ e.c2 = c.c2 := by
          have := List.find?_some hf
          simpa [Combo.same] using this
        refine ⟨e, (mem_removeDuplicates_iff hb e).2 (by rw [he.1, he.2]; exact hf), by rw [he.1, he.2]⟩
  · rw [List.Nodup, List.pairwise_map]
    refine (removeDuplicates_pairwise hb).imp (fun {a b} hab => ?_)
    unfold Combo.Lt at hab
    simp only [ne_eq, Prod.mk.injEq]
    omega
  · exact List.nodup_dedup _

theorem count_of_parse {lower : List Char → List Char} {text : List Char} {l : List Combo} {n : Nat}
    (hr : text ≠ ['r', 'a', 'n', 'd', 'o', 'm']) (hl : parseLoop (lower text ++ [' ']) ((lower text ++ [' ']).length + 1) 0 [] = .ok l)
    (hb : ∀ c ∈ l, c.c1 < 256 ∧ c.c2 < 256) (hn : (l.map fun c => (c.c1, c.c2)).dedup.length = n) :
    ∃ hands, fromString lower text = .ok hands ∧ hands.length = n := by
  refine ⟨removeDuplicates l, ?_, by rw [removeDuplicates_length hb, hn]⟩
  unfold fromString
  rw [if_neg hr]
  simp only [hl, bind, Except.bind, pure, Except.pure]

/-- `test_char_to_suit`, `test_char_to_rank`, `test_hand_range_add_combo`, `test_hand_range_add_combos` -/
theorem C62_combos :
    (charToSuit 's' = 0 ∧ charToSuit 'h' = 1 ∧ charToSuit 'x' = 255 ∧ charToSuit ' ' = 255) ∧
    (charToRank 'a' = 12 ∧ charToRank '2' = 0 ∧ charToRank 'x' = 255 ∧ charToRank ' ' = 255) ∧
    (addCombo [] 52 0 100 = [] ∧ addCombo [] 0 0 100 = []) ∧
    ((addCombos [] 1 1 true true 100).length = 6 ∧ (addCombos [] 1 0 true false 100).length = 4 ∧
      (addCombos [] 1 0 false true 100).length = 12 ∧ (addCombos [] 1 0 true true 100).length = 16) := by decide +kernel

/-- `test_hand_range_remove_duplicates` -/
theorem C62_duplicates :
    ((addCombos (addCombos [] 1 1 true true 100) 1 1 true true 100).length = 12 ∧
      (removeDuplicates (addCombos (addCombos [] 1 1 true true 100) 1 1 true true 100)).length = 6) ∧
    ((addCombos (addCombos [] 1 0 true false 100) 1 0 false true 100).length = 16 ∧
      (removeDuplicates (addCombos (addCombos [] 1 0 true false 100) 1 0 false true 100)).length = 16) := by
  refine ⟨⟨by decide +kernel, ?_⟩, by decide +kernel, ?_⟩ <;> rw [removeDuplicates_length (by decide +kernel)] <;> decide +kernel

/-- `test_hand_range_random`, `test_hand_range_from_str` -/
theorem C62_ranges :
    ∀ x ∈ [("random", 1326), ("33", 6), ("a2o", 12), ("a2s", 4), ("a2+", 192), ("a2o+", 144), ("a2s+", 48), ("22,a2s+", 54),
      ("a2s+,a4s+", 48), ("as2h@50,AA@25,KK@100", 13)],
      ∃ hands, fromString asciiLower x.1.toList = .ok hands ∧ hands.length = x.2 := by
  intro x hx
  simp only [List.mem_cons, List.not_mem_nil, or_false] at hx
  rcases hx with rfl | rfl | rfl | rfl | rfl | rfl | rfl | rfl | rfl | rfl
  · obtain ⟨hands, h1, h2, _⟩ := C22_random asciiLower
    exact ⟨hands, h1, h2⟩
  · exact count_of_parse (l := addCombos [] 1 1 true true 100) (by decide) (by decide +kernel) (by decide +kernel) (by decide +kernel)
  · exact count_of_parse (l := addCombos [] 12 0 false true 100) (by decide) (by decide +kernel) (by decide +kernel) (by decide +kernel)
  · exact count_of_parse (l := addCombos [] 12 0 true false 100) (by decide) (by decide +kernel) (by decide +kernel) (by decide +kernel)
  · exact count_of_parse (l := addCombosPlus [] 12 0 true true 100) (by decide) (by decide +kernel) (by decide +kernel) (by decide +kernel)
  · exact count_of_parse (l := addCombosPlus [] 12 0 false true 100) (by decide) (by decide +kernel) (by decide +kernel) (by decide +kernel)
  · exact count_of_parse (l := addCombosPlus [] 12 0 true false 100) (by decide) (by decide +kernel) (by decide +kernel) (by decide +kernel)
  · exact count_of_parse (l := addCombosPlus (addCombos [] 0 0 true true 100) 12 0 true false 100) (by decide) (by decide +kernel)
      (by decide +kernel) (by decide +kernel)
  · exact count_of_parse (l := addCombosPlus (addCombosPlus [] 12 0 true false 100) 12 2 true false 100) (by decide) (by decide +kernel)
      (by decide +kernel) (by decide +kernel)
  · exact count_of_parse (l := addCombos (addCombos (addCombo [] 48 1 50) 12 12 true true 25) 11 11 true true 100) (by decide)
      (by decide +kernel) (by decide +kernel) (by decide +kernel)

/-! ## Weights (src/equity_calculator/simulator.rs:1332-1390) -/

/-- What `test_weight_optimization` checks, for all ranges: `save_hand_weights` stores the weights, or 1 if all weights of the player
are 100, and `fix_hand_weights` restores the weights of the range; cells without a hand of the range keep the weight 0. -/
theorem C62_weights {ranges : List (List Combo)} (hwf : ∀ r ∈ ranges, WfRange r) (hdist : ∀ r ∈ ranges, DistinctHands r)
    {k : Nat} (hk : k < NUM_HANDS * ranges.length) :
    let x := saveHandWeights ranges (Results.init ranges.length).handResults
    let y := fixHandWeights ranges x.2 x.1
    (x.1 k).weight = 0 ∧ (y k).weight = 0 ∨
      ∃ (p : Nat) (hp : p < ranges.length), ∃ c ∈ ranges[p], k = rowKey p c ∧ (y k).weight = c.w ∧
        (x.1 k).weight = if (∀ c ∈ ranges[p], c.w = 100) then 1 else c.w := by
  intro x y
  have h0 : 0 < NUM_HANDS := by decide
  have hp : k / NUM_HANDS < ranges.length := (Nat.div_lt_iff_lt_mul h0).2 (by rw [Nat.mul_comm]; exact hk)
  have hrow : InRow (k / NUM_HANDS) k := by
    have := Nat.div_add_mod k NUM_HANDS
    have := Nat.mod_lt k h0
    unfold InRow
    constructor <;> omega
  obtain ⟨w1, w2⟩ := weights_spec hwf hdist (Results.init ranges.length).handResults hp
  by_cases h : ∃ c ∈ ranges[k / NUM_HANDS], rowKey (k / NUM_HANDS) c = k
  · obtain ⟨c, hc, he⟩ := h
    obtain ⟨h1, h2⟩ := w1 c hc
    have h3 := h2 x.1 (by rw [h1]) rfl
    right
    refine ⟨_, hp, c, hc, he.symm, ?_, ?_⟩
    · show (fixHandWeights ranges x.2 x.1 k).weight = _
      rw [← he, h3]
    · show ((saveHandWeights ranges _).1 k).weight = _
      conv_lhs => rw [← he]
      rw [h1]
      have : allFull ranges[k / NUM_HANDS] = true ↔ ∀ c ∈ ranges[k / NUM_HANDS], c.w = 100 := by
        simp [allFull, List.all_eq_true]
      by_cases ha : ∀ c ∈ ranges[k / NUM_HANDS], c.w = 100
      · simp only [this.2 ha, if_true, if_pos ha]
      · simp only [mt this.1 ha, if_neg ha, Bool.false_eq_true, if_false]
  · left
    obtain ⟨h1, h2⟩ := w2 k hrow (fun c hc he => h ⟨c, hc, he⟩)
    constructor
    · show ((saveHandWeights ranges _).1 k).weight = 0
      rw [h1]; rfl
    · show (fixHandWeights ranges x.2 x.1 k).weight = 0
      rw [h2]
      show ((saveHandWeights ranges _).1 k).weight = 0
      rw [h1]; rfl

/-! ## `test_accuracy` (src/equity_calculator/simulator.rs:1416-1426) -/

/-- The six pairs of aces. -/
def aces : List Combo := [⟨49, 48, 100⟩, ⟨50, 48, 100⟩, ⟨50, 49, 100⟩, ⟨51, 48, 100⟩, ⟨51, 49, 100⟩, ⟨51, 50, 100⟩]

theorem aces_text : fromString asciiLower "AA".toList = .ok aces := by
  refine fromString_of_parse (l := addCombos [] 12 12 true true 100) ?_ ?_ ?_ ?_ ?_ ?_ <;> decide +kernel

/-- The ranges of `test_accuracy`. -/
theorem accuracy_ranges : fromStrings asciiLower ["AA".toList, "random".toList] = .ok [aces, addAll] := by
  simp only [fromStrings, List.mapM_cons, List.mapM_nil]
  rw [aces_text, show fromString asciiLower "random".toList = .ok addAll from rfl]
  rfl

/-- The board of `test_accuracy`. -/
def kingsMask : Nat := 1 <<< 47 ||| 1 <<< 44 ||| 1 <<< 45 ||| 1 <<< 4

theorem accuracy_board : getCardMask asciiLower "KdKsKh3s".toList = kingsMask := by decide +kernel
theorem accuracy_dead : getCardMask asciiLower "".toList = 0 := by decide +kernel

theorem kings_deck : CardMask kingsMask := by unfold CardMask; decide
theorem kings_cards : maskCards kingsMask = [4, 44, 45, 47] := by decide +kernel

theorem accuracy_wf : ∀ r ∈ [aces, addAll], WfRange r := by
  intro r hr
  rcases List.mem_cons.1 hr with rfl | hr
  · unfold WfRange aces; decide
  · rw [List.mem_singleton.1 hr]
    intro c hc
    have := (mem_addAll c).1 hc
    omega

/-- All hands, as the specification sees them. -/
def allHands : List WHand := (List.range 52).flatMap fun c1 => (List.range c1).map fun c2 => (c1, c2, 100)

theorem accuracy_spec : specRanges [aces, addAll] = [aces.map toHole, allHands] := by
  simp only [specRanges, List.map_cons, List.map_nil, addAll_eq, allHands, List.map_flatMap, List.map_map]
  rfl

theorem aces_two : TwoCards (aces.map toHole) := by decide +kernel
theorem all_two : TwoCards allHands := by decide +kernel

set_option maxRecDepth 100000 in
theorem accuracy_points : turnSum true points [4, 44, 45, 47] [] (aces.map toHole) allHands = 5219040000 := by decide +kernel

set_option maxRecDepth 100000 in
theorem accuracy_total : turnSum false (fun _ _ => 1) [4, 44, 45, 47] [] (aces.map toHole) allHands = 2732400000 := by decide +kernel

/-- Two players and four board cards: the equity of the first player from the sums evaluated by the kernel. -/
theorem turn_equity {ranges : List (List Combo)} {b d nT : Nat} {cancelled : Bool} {r : Results} {sent : List Nat}
    (hwf : ∀ r ∈ ranges, WfRange r) (hb : CardMask b) (hd : CardMask d) (hT : 0 < nT) (hw : WholeShares ranges b d)
    {R0 R1 : List WHand} (hs : specRanges ranges = [R0, R1]) (hl : (maskCards b).length = 4)
    (h0 : TwoCards R0) (h1 : TwoCards R1) {P T : Nat} (hP : turnSum true points (maskCards b) (maskCards d) R0 R1 = P)
    (hT' : turnSum false (fun _ _ => 1) (maskCards b) (maskCards d) R0 R1 = T)
    (h : ExactEquity ranges b d nT cancelled false (.ok r) sent) : r.equities[0]? = some (fdiv ((P : ℚ) / 2) (T : ℚ)) := by
  have hlen : ranges.length = 2 := by
    have := congrArg List.length hs
    simpa [specRanges] using this
  obtain ⟨_, he⟩ := C61_exact hwf hb hd hT (by omega) hw h
  have he := he 0 (by omega)
  rw [he, hs]
  have e1 := turn_points (dead := maskCards d) (maskCards_isCards b) hl h0 h1
  have e2 := turn_total (maskCards d) (maskCards_isCards b) hl h0 h1
  rw [hP] at e1
  rw [hT'] at e2
  rw [← e2, e1, mul_div_cancel_left₀ _ (by norm_num : (2 : ℚ) ≠ 0)]

/-- The equity of the aces in `test_accuracy`.  (The ranges are variables here: unfolding them is slow.) -/
theorem accuracy_equity {ranges : List (List Combo)} {b d nT : Nat} (hr : ranges = [aces, addAll]) (hb : b = kingsMask) (hd : d = 0) (hT : 0 < nT)
    {cancelled : Bool} {r : Results} {sent : List Nat} (h : ExactEquity ranges b d nT cancelled false (.ok r) sent) :
    r.equities[0]? = some (some (10873 / 11385)) := by
  have hwf : ∀ r ∈ ranges, WfRange r := by rw [hr]; exact accuracy_wf
  have hbD : CardMask b := by rw [hb]; exact kings_deck
  have hdD : CardMask d := by rw [hd]; exact zero_deck
  have hw : WholeShares ranges b d := by
    rw [hr, hb, hd]; exact C61_two_players accuracy_wf rfl (p := 0) (by decide) (by decide +kernel)
  have hs : specRanges ranges = [aces.map toHole, allHands] := by rw [hr]; exact accuracy_spec
  have hbc : maskCards b = [4, 44, 45, 47] := by rw [hb]; exact kings_cards
  have hdc : maskCards d = [] := by rw [hd]; decide +kernel
  have hP : turnSum true points (maskCards b) (maskCards d) (aces.map toHole) allHands = 5219040000 := by
    rw [hbc, hdc]; exact accuracy_points
  have hS : turnSum false (fun _ _ => 1) (maskCards b) (maskCards d) (aces.map toHole) allHands = 2732400000 := by
    rw [hbc, hdc]; exact accuracy_total
  have hl : (maskCards b).length = 4 := by rw [hbc]; rfl
  rw [turn_equity hwf hbD hdD hT hw hs hl aces_two all_two hP hS h]
  unfold fdiv
  rw [if_neg (by norm_num)]
  congr 2
  norm_num

/-- `test_accuracy` has a run for every number of threads. -/
theorem accuracy_run {ranges : List (List Combo)} {b d : Nat} (hr : ranges = [aces, addAll]) (hb : b = kingsMask) (hd : d = 0) (nT : Nat) :
    ∃ r sent, ExactEquity ranges b d nT false false (.ok r) sent := by
  have hwf : ∀ r ∈ ranges, WfRange r := by rw [hr]; exact accuracy_wf
  have hbD : CardMask b := by rw [hb]; exact kings_deck
  have hdD : CardMask d := by rw [hd]; exact zero_deck
  have hs : specRanges ranges = [aces.map toHole, allHands] := by rw [hr]; exact accuracy_spec
  have hbc : maskCards b = [4, 44, 45, 47] := by rw [hb]; exact kings_cards
  have hdc : maskCards d = [] := by rw [hd]; decide +kernel
  refine run_of_deal hwf hbD hdD ?_ ?_ ?_ nT false
  · rw [hr, hb, hd]; decide +kernel
  · rw [hs, hbc, hdc]
    refine List.ne_nil_of_mem (a := [(49, 48, 100), (1, 0, 100)]) ?_
    unfold deals
    rw [List.mem_filter, mem_choices]
    refine ⟨⟨rfl, fun p hp _ => ?_⟩, by decide +kernel⟩
    have : p = 0 ∨ p = 1 := by
      have : ([(49, 48, 100), (1, 0, 100)] : List WHand).length = 2 := rfl
      omega
    rcases this with rfl | rfl
    · exact List.mem_map.2 ⟨⟨49, 48, 100⟩, by decide, rfl⟩
    · exact List.mem_flatMap.2 ⟨1, by decide, List.mem_map.2 ⟨0, by decide, rfl⟩⟩
  · have h1 : addAll.length = 1326 := by
      obtain ⟨hands, he, hl, _⟩ := C22_random asciiLower
      rw [← hl, Except.ok.inj (show Except.ok addAll = Except.ok hands from he)]
    rw [hr, List.map_cons, List.map_cons, List.map_nil, h1]
    decide

/-- `test_accuracy`: a pair of aces against any hand on the board K♦ K♠ K♥ 3♠.  For every number of threads (at least one) the
calculation has a run, and every run that is not cancelled reports the equity 10873/11385 for the aces, which is 0.9550285463328941 to
sixteen digits, the number in the test: both round to the floating-point number 8602132410786017 / 2 ^ 53. -/
theorem C62_accuracy :
    ∃ ranges, fromStrings asciiLower ["AA".toList, "random".toList] = .ok ranges ∧
    ∀ nT, 0 < nT →
      (∃ r sent, ExactEquity ranges (getCardMask asciiLower "KdKsKh3s".toList) (getCardMask asciiLower "".toList) nT false false (.ok r) sent) ∧
      ∀ cancelled r sent, ExactEquity ranges (getCardMask asciiLower "KdKsKh3s".toList) (getCardMask asciiLower "".toList) nT cancelled false
          (.ok r) sent →
        r.equities[0]? = some (some (10873 / 11385)) ∧
        |(10873 / 11385 : ℚ) - 8602132410786017 / 2 ^ 53| < 1 / 2 ^ 54 ∧ |(0.9550285463328941 : ℚ) - 8602132410786017 / 2 ^ 53| < 1 / 2 ^ 54 := by
  obtain ⟨ranges, hr⟩ : ∃ ranges, ranges = [aces, addAll] := ⟨_, rfl⟩
  refine ⟨ranges, by rw [hr]; exact accuracy_ranges, fun nT hT => ⟨?_, fun cancelled r sent h => ⟨?_, ?_, ?_⟩⟩⟩
  · exact accuracy_run hr accuracy_board accuracy_dead nT
  · exact accuracy_equity hr accuracy_board accuracy_dead hT h
  · rw [abs_lt]; constructor <;> norm_num
  · rw [abs_lt]; constructor <;> norm_num

end Pokers
