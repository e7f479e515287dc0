import Verif.Proofs.BoardCounts
import Verif.Proofs.Exists
/-!
# The exact calculation counts all showdowns (C29, C30, C31, C32)
-/
namespace Pokers
open Spec CombinedRange

/-! ## C30 -/

/-- C30: the board enumeration for one deal, started with empty counters, produces the counts of all boards that complete the
given one without a dead or dealt card: for the hand of each player the total, the boards won alone, the boards shared and the
share, each times the weight of the deal; nothing for other hands; and per winner mask the boards with those winners. -/
theorem C30_board_enumeration (s : Sim) {board dead : List Nat} {d : List WHand} (h : DealOk board dead d) (hw : WfDeal d)
    (hn : s.nPlayers = d.length) (hfb : s.fixedBoard = ofCards board) {ph : Nat → Hole}
    (hph : ∀ i < d.length, ph i = d.getD i (0, 0, 0)) {used : Nat}
    (hu : ∀ c < 52, used.testBit c = true ↔ c ∈ board ++ dead ++ dealt d) (w : Nat) :
    let st := s.enumerateBoard ph w used (Batch.init s.nPlayers, HandStats.init)
    let bs := boards board dead d
    (∀ p a b, Holds p a b d → a < 52 → b < 52 → a ≠ b →
      let u := st.2 (NUM_HANDS * p + getCardIndex a b)
      u.total = w * bs.length ∧ u.wins = w * bs.countP (fun B => winners B d = [p]) ∧
      u.ties = w * bs.countP (fun B => p ∈ winners B d ∧ winners B d ≠ [p]) ∧
      u.correctedTies = w * ((bs.filter fun B => p ∈ winners B d ∧ winners B d ≠ [p]).map fun B => 1 / ((winners B d).length : ℚ)).sum) ∧
    (∀ p a b, ¬ Holds p a b d → a < 52 → b < 52 → a ≠ b →
      let u := st.2 (NUM_HANDS * p + getCardIndex a b)
      u.total = 0 ∧ u.wins = 0 ∧ u.ties = 0 ∧ u.correctedTies = 0) ∧
    (d.length ≤ 8 → ∀ i < 2 ^ d.length, st.1.winsByMask i = w * bs.countP (fun B => winners B d = maskPlayers d.length i)) := by
  simp only
  have hE := (enumerateBoard_tally s h hn hfb hph hu w (Batch.init s.nPlayers, HandStats.init)
    (fun i hi => batchInit_ids s.nPlayers i (by rw [hn]; exact hi))).1
  have h0 : tallyOf (Batch.init s.nPlayers, HandStats.init) = 0 := rfl
  rw [h0, zero_add] at hE
  generalize s.enumerateBoard ph w used (Batch.init s.nPlayers, HandStats.init) = st at hE
  have hcell : ∀ k, cellOf (st.2 k) = w • (boardsTally d (boards board dead d)).2 k := fun k => congrFun (congrArg Prod.snd hE) k
  refine ⟨fun p a b hH ha hb hab => ?_, fun p a b hH ha hb hab => ?_, fun h8 i hi => ?_⟩
  · have hc := hcell (NUM_HANDS * p + getCardIndex a b)
    rw [boardsTally_cell d hw _ ha hb hab hH] at hc
    refine ⟨congrArg (fun c : Cell => c.2.2.1) hc, congrArg (fun c : Cell => c.1) hc, congrArg (fun c : Cell => c.2.1) hc, ?_⟩
    have := congrArg (fun c : Cell => c.2.2.2) hc
    rw [← nsmul_eq_mul]
    exact this
  · have hc := hcell (NUM_HANDS * p + getCardIndex a b)
    rw [boardsTally_other d hw _ ha hb hab hH, smul_zero] at hc
    exact ⟨congrArg (fun c : Cell => c.2.2.1) hc, congrArg (fun c : Cell => c.1) hc, congrArg (fun c : Cell => c.2.1) hc,
      congrArg (fun c : Cell => c.2.2.2) hc⟩
  · have hm : st.1.winsByMask i = w • (boardsTally d (boards board dead d)).1 i := congrFun (congrArg Prod.fst hE) i
    rw [hm, boardsTally_mask, smul_eq_mul]
    congr 1
    apply List.countP_congr
    intro B _
    rw [decide_eq_true_iff, decide_eq_true_iff, u8Mask_eq_iff h8 hi]

/-- A deal of aces against kings on a flop meets the hypotheses of `C30_board_enumeration`. -/
example : DealOk [0, 5, 10] [] [(50, 51, 1), (46, 47, 1)] ∧ WfDeal [(50, 51, 1), (46, 47, 1)] :=
  ⟨⟨by decide, by decide, by decide, by decide⟩, by unfold WfDeal; decide⟩

/-! ## C31 -/

/-- C31: without cancellation, the results of every hand are the counts over all showdowns: every legal deal with every board,
weighted with the product of the weights of the hands.  Any number of players (2 to 9), any number of threads and any schedule. -/
theorem C31_hands {ranges : List (List Combo)} {b d nT : Nat} {cancelled : Bool} {r : Results} {sent : List Nat}
    (hwf : ∀ r ∈ ranges, WfRange r) (hb : CardMask b) (hd : CardMask d) (hT : 0 < nT)
    (h : ExactEquity ranges b d nT cancelled false (.ok r) sent) {p x y : Nat} (hp : p < ranges.length) (hx : x < 52) (hy : y < 52)
    (hxy : x ≠ y) :
    let sd := showdowns (specRanges ranges) (maskCards b) (maskCards d)
    let u := r.handResults (NUM_HANDS * p + getCardIndex x y)
    u.wins = handWins sd p x y ∧ u.ties = handTies sd p x y ∧ u.total = handTotal sd p x y ∧
    u.correctedTies = handShares sd p x y := by
  obtain ⟨s, ds, total, size, flag, r0, hist, D, hrun, _⟩ := exact_run hwf hb hd h
  obtain ⟨_, _, _, hall⟩ := hrun.counts
  have hc := (hall hT rfl).2.hand p hp x hx y hy hxy
  exact ⟨congrArg (fun c : Cell => c.1) hc, congrArg (fun c : Cell => c.2.1) hc, congrArg (fun c : Cell => c.2.2.1) hc,
    congrArg (fun c : Cell => c.2.2.2) hc⟩

theorem showdowns_length {ranges : List (List Combo)} (hwf : ∀ r ∈ ranges, WfRange r) {board dead : List Nat} :
    ∀ x ∈ showdowns (specRanges ranges) board dead, x.1.length = ranges.length := fun _ hx => (showdowns_wf hwf hx).2

/-- C31: for up to eight players, `wins_by_mask` counts the showdowns won by exactly the players of the mask and `wins` those a
player wins alone. -/
theorem C31_masks {ranges : List (List Combo)} {b d nT : Nat} {cancelled : Bool} {r : Results} {sent : List Nat}
    (hwf : ∀ r ∈ ranges, WfRange r) (hb : CardMask b) (hd : CardMask d) (hT : 0 < nT) (h8 : ranges.length ≤ 8)
    (h : ExactEquity ranges b d nT cancelled false (.ok r) sent) :
    let sd := showdowns (specRanges ranges) (maskCards b) (maskCards d)
    (∀ i < 2 ^ ranges.length, r.winsByMask i = winsOf sd (maskPlayers ranges.length i)) ∧
    ∀ p < ranges.length, r.wins p = winsOf sd [p] := by
  obtain ⟨s, ds, total, size, flag, r0, hist, D, hrun, _⟩ := exact_run hwf hb hd h
  obtain ⟨_, _, _, hall⟩ := hrun.counts
  have hc := (hall hT rfl).2
  exact ⟨hc.masks (showdowns_length hwf) h8, hc.playerWins (showdowns_length hwf) h8⟩

/-! ## C29 -/

/-- C29: two runs on the same input, with any numbers of threads and any schedules, not cancelled, give the same counts. -/
theorem C29_schedule_independent {ranges : List (List Combo)} {b d nT nT' : Nat} {c c' : Bool} {r r' : Results} {sent sent' : List Nat}
    (hwf : ∀ r ∈ ranges, WfRange r) (hb : CardMask b) (hd : CardMask d) (hT : 0 < nT) (hT' : 0 < nT')
    (h : ExactEquity ranges b d nT c false (.ok r) sent) (h' : ExactEquity ranges b d nT' c' false (.ok r') sent') :
    (∀ p < ranges.length, r.wins p = r'.wins p) ∧ (∀ i < 2 ^ ranges.length, r.winsByMask i = r'.winsByMask i) ∧
    (∀ k < NUM_HANDS * ranges.length, (r.handResults k).wins = (r'.handResults k).wins ∧
      (r.handResults k).ties = (r'.handResults k).ties ∧ (r.handResults k).total = (r'.handResults k).total ∧
      (r.handResults k).correctedTies = (r'.handResults k).correctedTies) ∧
    r.evalCount = r'.evalCount := by
  obtain ⟨s, ds, total, size, flag, r0, hist, D, hrun, _⟩ := exact_run hwf hb hd h
  obtain ⟨s', ds', total', size', flag', r0', hist', D', hrun', _⟩ := exact_run hwf hb hd h'
  have hs : s' = s := by
    have h1 := hrun.ready.ok
    rw [hrun'.ready.ok] at h1
    exact Except.ok.inj h1
  subst hs
  have hds : ds' = ds := Option.some.inj (hrun'.ready.dividers.symm.trans hrun.ready.dividers)
  subst hds
  have ht : total' = total := Option.some.inj (hrun'.ready.count.symm.trans hrun.ready.count)
  subst ht
  have hn := hrun.ready.fields.1
  have hfull : trunc s'.nPlayers (resFull r) = trunc s'.nPlayers (resFull r') := by
    rw [hrun.full, hrun'.full, hrun.all hT rfl, hrun'.all hT' rfl]
  rw [hn] at hfull
  have hm : ∀ i < 2 ^ ranges.length, r.winsByMask i = r'.winsByMask i := fun i hi =>
    ((cut_apply r.winsByMask hi).symm.trans (congrFun (congrArg (fun x : FT => x.1.1) hfull) i)).trans (cut_apply _ hi)
  refine ⟨fun p hp => ?_, hm, fun k hk => ?_, congrArg (fun x : FT => x.2) hfull⟩
  · rw [hrun.wins p (by rw [hn]; exact hp), hrun'.wins p (by rw [hn]; exact hp), hm _ (Nat.pow_lt_pow_right (by omega) hp)]
  · have hc : cellOf (r.handResults k) = cellOf (r'.handResults k) :=
      ((cut_apply (fun k => cellOf (r.handResults k)) hk).symm.trans (congrFun (congrArg (fun x : FT => x.1.2) hfull) k)).trans
        (cut_apply _ hk)
    exact ⟨congrArg (fun c : Cell => c.1) hc, congrArg (fun c : Cell => c.2.1) hc, congrArg (fun c : Cell => c.2.2.1) hc,
      congrArg (fun c : Cell => c.2.2.2) hc⟩

/-! ## C32 -/

/-- The full statement of C32: whoever alone holds the best hand is credited. -/
def CreditsSoleWinners (ranges : List (List Combo)) (b d : Nat) (r : Results) : Prop :=
  ∀ p < ranges.length, r.wins p = winsOf (showdowns (specRanges ranges) (maskCards b) (maskCards d)) [p]

/-- C32 for up to eight players.  Missing: nine players, for which it is false (`C32_ninth_loses`). -/
theorem C32_partial {ranges : List (List Combo)} {b d nT : Nat} {cancelled : Bool} {r : Results} {sent : List Nat}
    (hwf : ∀ r ∈ ranges, WfRange r) (hb : CardMask b) (hd : CardMask d) (hT : 0 < nT) (h8 : ranges.length ≤ 8)
    (h : ExactEquity ranges b d nT cancelled false (.ok r) sent) : CreditsSoleWinners ranges b d r :=
  (C31_masks hwf hb hd hT h8 h).2

/-- C32 with nine players (finding): the ninth player is never credited with a win, whatever the cards; a showdown the ninth
player wins alone is counted at the mask of no player, and a showdown the ninth player shares with one other player is counted
as a win of that player. -/
theorem C32_nine_players {ranges : List (List Combo)} {b d nT : Nat} {cancelled : Bool} {r : Results} {sent : List Nat}
    (hwf : ∀ r ∈ ranges, WfRange r) (hb : CardMask b) (hd : CardMask d) (hT : 0 < nT) (h9 : ranges.length = 9)
    (h : ExactEquity ranges b d nT cancelled false (.ok r) sent) :
    let sd := showdowns (specRanges ranges) (maskCards b) (maskCards d)
    r.wins 8 = 0 ∧ r.winsByMask 0 = winsOf sd [8] ∧ (∀ i, 2 ^ 8 ≤ i → i < 2 ^ 9 → r.winsByMask i = 0) ∧
    (∀ p < 8, r.wins p = winsOf sd [p] + winsOf sd [p, 8]) := by
  intro sd
  obtain ⟨s, ds, total, size, flag, r0, hist, D, hrun, _⟩ := exact_run hwf hb hd h
  obtain ⟨_, _, _, hall⟩ := hrun.counts
  have hc := (hall hT rfl).2
  have hl : ∀ x ∈ sd, x.1.length = 9 := fun x hx => (showdowns_length hwf x hx).trans h9
  rw [h9] at hc
  have hbig : ∀ i, 2 ^ 8 ≤ i → i < 2 ^ 9 → r.winsByMask i = 0 := by
    intro i hi hi9
    rw [hc.mask i hi9]
    have : weightOf sd (fun x => u8Mask (winners x.2 x.1) = i) = weightOf sd (fun _ => False) := by
      apply weightOf_congr
      intro x hx
      have := (u8Mask_nine x.2 (hl x hx)).2.1
      constructor
      · intro hx; omega
      · exact False.elim
    rw [this]
    simp [weightOf]
  have hsub : ∀ x ∈ sd, ∀ S : List Nat, S.Sublist (List.range 9) →
      ((∀ j, j ∈ winners x.2 x.1 ↔ j ∈ S) ↔ winners x.2 x.1 = S) := by
    intro x hx S hS
    constructor
    · intro hh
      have hw : (winners x.2 x.1).Sublist (List.range 9) := by
        rw [winners_filter, hl x hx]; exact List.filter_sublist
      exact List.Perm.eq_of_pairwise (le := (· < ·)) (fun a b _ _ h1 h2 => by omega)
        (List.Pairwise.sublist hw (List.pairwise_lt_range)) (List.Pairwise.sublist hS (List.pairwise_lt_range))
        ((List.perm_ext_iff_of_nodup (List.Nodup.sublist hw List.nodup_range) (List.Nodup.sublist hS List.nodup_range)).2 hh)
    · intro hh j; rw [hh]
  have hbits : ∀ x ∈ sd, ∀ i < 2 ^ 8, (u8Mask (winners x.2 x.1) = i ↔ ∀ j < 8, (j ∈ winners x.2 x.1 ↔ i.testBit j = true)) := by
    intro x hx i hi
    obtain ⟨_, h1, h2⟩ := u8Mask_nine x.2 (hl x hx)
    constructor
    · rintro rfl j hj
      rw [h2]; simp [hj]
    · intro hh
      apply Nat.eq_of_testBit_eq
      intro j
      rw [Bool.eq_iff_iff, h2]
      by_cases hj : j < 8
      · rw [hh j hj]; simp [hj]
      · rw [Nat.testBit_lt_two_pow (lt_of_lt_of_le hi (Nat.pow_le_pow_right (by omega) (by omega)))]; simp [hj]
  have hlt : ∀ x ∈ sd, ∀ j ∈ winners x.2 x.1, j < 9 := fun x hx j hj => (hl x hx) ▸ winners_lt hj
  have hne : ∀ x ∈ sd, winners x.2 x.1 ≠ [] := fun x hx => winners_ne_nil (by rw [hl x hx]; omega)
  refine ⟨?_, ?_, hbig, fun p hp => ?_⟩
  · rw [hc.wins 8 (by omega)]; exact hbig _ le_rfl (by omega)
  · rw [hc.mask 0 (by omega)]
    apply weightOf_congr
    intro x hx
    rw [hbits x hx 0 (by omega), ← hsub x hx [8] (by decide)]
    simp only [Nat.zero_testBit, Bool.false_eq_true, iff_false, List.mem_singleton]
    constructor
    · intro hh j
      constructor
      · intro hj
        have := hlt x hx j hj
        by_contra hne
        exact hh j (by omega) hj
      · rintro rfl
        obtain ⟨k, hk⟩ := List.exists_mem_of_ne_nil _ (hne x hx)
        have := hlt x hx k hk
        have : ¬ k < 8 := fun hk8 => hh k hk8 hk
        have : k = 8 := by omega
        exact this ▸ hk
    · intro hh j hj hj'
      have := (hh j).1 hj'
      omega
  · rw [hc.wins p (by omega), hc.mask _ (Nat.pow_lt_pow_right (by omega) (by omega))]
    unfold winsOf
    rw [← weightOf_or]
    · apply weightOf_congr
      intro x hx
      rw [hbits x hx _ (Nat.pow_lt_pow_right (by omega) hp),
        ← hsub x hx [p] (List.singleton_sublist.2 (List.mem_range.2 (by omega))),
        ← hsub x hx [p, 8] ?_]
      · have hb2 : ∀ j, (2 ^ p).testBit j = true ↔ j = p := by
          intro j; rw [Nat.testBit_two_pow, decide_eq_true_iff, eq_comm]
        simp only [hb2, List.mem_cons, List.not_mem_nil, or_false]
        constructor
        · intro hh
          by_cases h8 : 8 ∈ winners x.2 x.1
          · right
            intro j
            by_cases hj : j < 8
            · rw [hh j hj]; constructor
              · exact Or.inl
              · rintro (h | h) <;> omega
            · constructor
              · intro hj'
                have := hlt x hx j hj'
                right; omega
              · rintro (h | h)
                · omega
                · exact h ▸ h8
          · left
            intro j
            by_cases hj : j < 8
            · rw [hh j hj]
            · constructor
              · intro hj'
                have := hlt x hx j hj'
                have : j = 8 := by omega
                exact absurd (this ▸ hj') h8
              · intro h; omega
        · rintro (hh | hh) j hj
          · rw [hh j]
          · rw [hh j]
            constructor
            · rintro (h | h) <;> omega
            · exact Or.inl
      · have : ∀ p < 8, List.Sublist [p, 8] (List.range 9) := by decide
        exact this p hp
    · intro x _ h1 h2
      rw [h1] at h2
      simp at h2

/-- Nine hands on the board `2 3 4 8 J`: the last one is a pair of aces, the others make no pair. -/
def nineHands : List (List Combo) :=
  [[⟨20, 28, 100⟩], [⟨21, 29, 100⟩], [⟨22, 30, 100⟩], [⟨23, 31, 100⟩], [⟨32, 40, 100⟩], [⟨33, 41, 100⟩], [⟨34, 42, 100⟩],
   [⟨35, 43, 100⟩], [⟨50, 51, 100⟩]]

/-- The cards 0, 5, 10, 27, 36. -/
def nineBoard : Nat := 1 <<< 0 ||| 1 <<< 5 ||| 1 <<< 10 ||| 1 <<< 27 ||| 1 <<< 36

theorem nine_wf : ∀ r ∈ nineHands, WfRange r := by unfold WfRange nineHands; decide +kernel

theorem nine_run (nT : Nat) : ∃ r sent, ExactEquity nineHands nineBoard 0 nT false false (.ok r) sent :=
  run_exists' nine_wf (by unfold CardMask; decide) (by unfold CardMask; decide) (by decide +kernel)
    (by decide +kernel) (by decide +kernel) nT false

theorem nine_wins : winsOf (showdowns (specRanges nineHands) (maskCards nineBoard) (maskCards 0)) [8] = 100 ^ 9 := by decide +kernel

/-- C32 fails for nine players (finding): the ninth player holds the only pair, so wins the only showdown, and every run
reports no win for the ninth player. -/
theorem C32_ninth_loses (nT : Nat) (hT : 0 < nT) : (∃ r sent, ExactEquity nineHands nineBoard 0 nT false false (.ok r) sent) ∧
    ∀ cancelled r sent, ExactEquity nineHands nineBoard 0 nT cancelled false (.ok r) sent → r.wins 8 = 0 ∧ ¬ CreditsSoleWinners nineHands nineBoard 0 r := by
  refine ⟨nine_run nT, ?_⟩
  generalize hn : nineHands = rs at *
  generalize hb : nineBoard = bd at *
  intro cancelled r sent h
  have h0 : r.wins 8 = 0 := by
    have h1 := C32_nine_players (ranges := rs) (b := bd) (d := 0) (by rw [← hn]; exact nine_wf)
      (by rw [← hb]; unfold CardMask; decide) (by unfold CardMask; decide) hT (by rw [← hn]; decide) h
    exact h1.1
  refine ⟨h0, fun hc => ?_⟩
  have := hc 8 (by rw [← hn]; decide)
  rw [h0, ← hn, ← hb, nine_wins] at this
  exact absurd this (by decide)

/-! ## Runs exist -/

/-- Aces against kings on the flop `2 3 4`. -/
def twoHands : List (List Combo) := [[⟨50, 51, 100⟩], [⟨46, 47, 50⟩]]

/-- The cards 0, 5, 10. -/
def flopMask : Nat := 1 <<< 0 ||| 1 <<< 5 ||| 1 <<< 10

theorem two_run (nT : Nat) (cancelled : Bool) : ∃ r sent, ExactEquity twoHands flopMask 0 nT cancelled cancelled (.ok r) sent :=
  run_exists' (by unfold WfRange twoHands; decide) (by unfold CardMask; decide) (by unfold CardMask; decide) (by decide +kernel)
    (by decide +kernel) (by decide +kernel) nT cancelled

/-- A run of this calculation with three threads exists, and the aces are credited with 5000 for each of the 990 run-outs. -/
example : ∃ r sent, ExactEquity twoHands flopMask 0 3 false false (.ok r) sent ∧
    (r.handResults (getCardIndex 50 51)).total = handTotal (showdowns (specRanges twoHands) (maskCards flopMask) (maskCards 0)) 0 50 51 := by
  obtain ⟨r, sent, h⟩ := two_run 3 false
  refine ⟨r, sent, h, ?_⟩
  have := (C31_hands (by unfold WfRange twoHands; decide) (by unfold CardMask; decide) (by unfold CardMask; decide) (by decide) h
    (p := 0) (x := 50) (y := 51) (by decide) (by decide) (by decide) (by decide)).2.2.1
  simpa using this

example : handTotal (showdowns (specRanges twoHands) (maskCards flopMask) (maskCards 0)) 0 50 51 = 990 * 5000 := by decide +kernel

end Pokers
