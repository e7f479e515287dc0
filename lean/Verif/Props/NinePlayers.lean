import Verif.Props.Shares
import Verif.Props.Exact
/-!
# C72: what is reported for nine players

`MAX_PLAYERS` is nine, but the mask of the winners has eight bits (C32).  The reported numbers are those of a game in which the ninth
player never gets a part of the pot: pots that the ninth player wins alone disappear, shared pots go to the other winners.
-/
namespace Pokers
open Spec CombinedRange
open Finset (range)

variable {ranges : List (List Combo)} {b d nT : Nat} {cancelled stopped : Bool} {r : Results} {sent : List Nat} {sqrt : ℚ → ℚ}
  {ex : Bool} {s : Sim} {flag : Nat} {r0 : Results} {hist : List (Batch × HandStats)} {sd : Shows}

/-- The winners other than the ninth player (number 8). -/
def otherWinners (x : List WHand × List Nat) : List Nat := (winners x.2 x.1).filter (· ≠ 8)

/-- The part of player `p` when the pot is divided among the winners other than the ninth player. -/
def partWithoutNinth (p : Nat) (x : List WHand × List Nat) : ℚ :=
  if p ∈ otherWinners x then (Spec.dealWeight x.1 : ℚ) / ((otherWinners x).length : ℚ) else 0

/-- The parts of player `p` in all showdowns. -/
def partsWithoutNinth (sd : Shows) (p : Nat) : ℚ := (sd.map (partWithoutNinth p)).sum

theorem nine_mask {x : List WHand × List Nat} (h9 : x.1.length = 9) :
    u8Mask (winners x.2 x.1) < 2 ^ 8 ∧ (∀ j, (u8Mask (winners x.2 x.1)).testBit j = true ↔ j ∈ otherWinners x) ∧
    countOnes (u8Mask (winners x.2 x.1)) = (otherWinners x).length := by
  obtain ⟨_, h2, h3⟩ := u8Mask_nine x.2 h9
  have ht : ∀ j, (u8Mask (winners x.2 x.1)).testBit j = true ↔ j ∈ otherWinners x := by
    intro j
    rw [h3, otherWinners, List.mem_filter, decide_eq_true_iff]
    constructor
    · rintro ⟨h, hj⟩
      exact ⟨hj, by omega⟩
    · rintro ⟨hj, h⟩
      have := winners_lt hj
      exact ⟨by omega, hj⟩
  refine ⟨h2, ht, ?_⟩
  rw [← maskPlayers_length (n := 9) (h2.trans (by decide)) (by omega)]
  congr 1
  have e : otherWinners x = (List.range 9).filter fun j => decide (j ∈ otherWinners x) := by
    have hs : otherWinners x = (List.range 9).filter fun j => decide (∀ k < x.1.length, strength x.2 x.1 k ≤ strength x.2 x.1 j) && decide (j ≠ 8) := by
      unfold otherWinners
      rw [winners_filter, List.filter_filter, h9]
      apply List.filter_congr
      intro j _
      rw [Bool.and_comm]
    conv_lhs => rw [hs]
    apply List.filter_congr
    intro j hj
    rw [hs]
    simp only [List.mem_filter, hj, true_and, Bool.decide_eq_true]
  rw [e]
  unfold maskPlayers
  apply List.filter_congr
  intro j _
  rw [Bool.eq_iff_iff, decide_eq_true_iff]
  exact ht j

/-- Sums over all masks are sums over the showdowns. -/
theorem sum_over_masks {N : Nat} (g : Nat → ℚ) (m : List WHand × List Nat → Nat) :
    ∀ sd : Shows, (∀ x ∈ sd, m x < N) →
      ∑ i ∈ range N, (weightOf sd (fun x => m x = i) : ℚ) * g i = (sd.map fun x => (Spec.dealWeight x.1 : ℚ) * g (m x)).sum := by
  intro sd
  induction sd with
  | nil => intro _; simp [weightOf_nil]
  | cons x sd ih =>
    intro h
    rw [List.map_cons, List.sum_cons, ← ih fun y hy => h y (by simp [hy])]
    simp only [weightOf_cons]
    push_cast
    simp only [add_mul, Finset.sum_add_distrib]
    congr 1
    have : ∀ i, ((if m x = i then (Spec.dealWeight x.1 : ℚ) else 0) * g i) = if m x = i then (Spec.dealWeight x.1 : ℚ) * g i else 0 := by
      intro i; split <;> simp
    simp only [this]
    rw [Finset.sum_ite_eq, if_pos (Finset.mem_range.2 (h x (by simp)))]

/-- C72 for both calculations. -/
theorem Calc.nine (h : Calc sqrt ex ranges b d r s flag r0 hist sd) (h9 : ranges.length = 9)
    (hw : ∀ x ∈ showdowns (specRanges ranges) (maskCards b) (maskCards d), (otherWinners x).length ∣ Spec.dealWeight x.1 ∨ otherWinners x = []) :
    (∀ p < 9, (r.wins p : ℚ) + r.ties p = partsWithoutNinth sd p) ∧
    ∀ p < 9, r.equities[p]? = some (fdiv (partsWithoutNinth sd p) ((totalWeight sd : ℚ) - winsOf sd [8])) := by
  have hn := h.players
  have hl : ∀ x ∈ sd, x.1.length = 9 := fun x hx => (h.deals x hx).2.trans h9
  have hmask : ∀ i < 2 ^ 9, r.winsByMask i = weightOf sd fun x => u8Mask (winners x.2 x.1) = i := by
    intro i hi
    exact h.counts.mask i (by rw [h9]; exact hi)
  have hlt : ∀ x ∈ sd, u8Mask (winners x.2 x.1) < 2 ^ 9 := fun x hx => (nine_mask (hl x hx)).1.trans (by decide)
  have hparts : ∀ p < 9, (r.wins p : ℚ) + r.ties p = partsWithoutNinth sd p := by
    intro p hp
    have e1 : partsWithoutNinth sd p = ∑ i ∈ range (2 ^ 9), if i.testBit p = true then (r.winsByMask i : ℚ) / (countOnes i : ℚ) else 0 := by
      have := sum_over_masks (N := 2 ^ 9) (fun i => if i.testBit p = true then 1 / (countOnes i : ℚ) else 0) (fun x => u8Mask (winners x.2 x.1)) sd hlt
      rw [partsWithoutNinth, List.map_congr_left (g := fun x => (Spec.dealWeight x.1 : ℚ) *
        (if (u8Mask (winners x.2 x.1)).testBit p = true then 1 / (countOnes (u8Mask (winners x.2 x.1)) : ℚ) else 0)), ← this]
      · refine Finset.sum_congr rfl fun i hi => ?_
        rw [hmask i (Finset.mem_range.1 hi)]
        split <;> ring
      · intro x hx
        obtain ⟨_, h2, h3⟩ := nine_mask (hl x hx)
        unfold partWithoutNinth
        rw [h3]
        by_cases hm : p ∈ otherWinners x
        · rw [if_pos hm, if_pos ((h2 p).2 hm)]; ring
        · rw [if_neg hm, if_neg fun hc => hm ((h2 p).1 hc)]; ring
    have e2 : r.ties p = ∑ i ∈ range (2 ^ 9), if i.testBit p = true ∧ countOnes i ≠ 1 then (r.winsByMask i : ℚ) / (countOnes i : ℚ) else 0 := by
      rw [h.ties (by rw [hn, h9]; exact hp), hn, h9]
      have e : ∀ i ∈ range (2 ^ 9), (if i.testBit p = true ∧ countOnes i ≠ 1 then (r.winsByMask i : ℚ) / (countOnes i : ℚ) else 0) =
          (hist.map fun x => maskTies x.1 p i).sum := by
        intro i hi
        rw [Finset.mem_range] at hi
        rw [h.masks (by rw [hn, h9]; exact hi)]
        have hwh : ∀ x ∈ hist, countOnes i ∣ x.1.winsByMask i ∨ i.testBit p = false := by
          intro x hx
          obtain ⟨sd', h1, h2⟩ := h.batches x hx
          rw [h2 i (by rw [h9]; exact hi)]
          by_cases hb : i.testBit p = true
          · left
            apply dvd_weightOf
            intro y hy he
            obtain ⟨_, k2, k3⟩ := nine_mask (x := y) ((showdowns_length h.wf y (h1 y hy)).trans h9)
            rw [he] at k2 k3
            rw [k3]
            rcases hw y (h1 y hy) with hd | hd
            · exact hd
            · have := (k2 p).1 hb
              rw [hd] at this
              cases this
          · right
            simpa using hb
        clear h hmask e1
        induction hist with
        | nil => simp
        | cons x L ih =>
          have ih := ih (fun y hy => hwh y (by simp [hy]))
          rw [List.map_cons, List.sum_cons, List.map_cons, List.sum_cons, ← ih]
          unfold maskTies tieShare
          split
          · rename_i hc
            have hpos := countOnes_pos (by omega) hc.1
            rcases hwh x (by simp) with ⟨k, hk⟩ | hk
            · have hq : (countOnes i : ℚ) ≠ 0 := by exact_mod_cast hpos.ne'
              rw [hk, Nat.mul_div_cancel_left _ hpos]
              push_cast
              field_simp
            · rw [hk] at hc
              exact absurd hc.1 (by simp)
          · simp
      rw [Finset.sum_congr rfl e]
      clear e h hmask e1
      induction hist with
      | nil => simp
      | cons x L ih => simp only [List.map_cons, List.sum_cons, ih, Finset.sum_add_distrib]
    have e3 : (r.wins p : ℚ) = ∑ i ∈ range (2 ^ 9), if i.testBit p = true ∧ countOnes i = 1 then (r.winsByMask i : ℚ) / (countOnes i : ℚ) else 0 := by
      rw [h.counts.wins p (by rw [h9]; exact hp)]
      have hone : ∀ p < 9, ∀ i < 2 ^ 9, (i.testBit p = true ∧ countOnes i = 1) ↔ i = 2 ^ p := by decide +kernel
      have : ∀ i ∈ range (2 ^ 9), (if i.testBit p = true ∧ countOnes i = 1 then (r.winsByMask i : ℚ) / (countOnes i : ℚ) else 0) =
          if i = 2 ^ p then (r.winsByMask i : ℚ) else 0 := by
        intro i hi
        have hi := hone p hp i (Finset.mem_range.1 hi)
        by_cases hc : i = 2 ^ p
        · rw [if_pos (hi.2 hc), if_pos hc, (hi.2 hc).2]; simp
        · rw [if_neg fun h => hc (hi.1 h), if_neg hc]
      rw [Finset.sum_congr rfl this, Finset.sum_ite_eq', if_pos (Finset.mem_range.2 (Nat.pow_lt_pow_right (by omega) hp))]
    rw [e3, e2, e1, ← Finset.sum_add_distrib]
    refine Finset.sum_congr rfl fun i _ => ?_
    by_cases h1 : i.testBit p = true <;> by_cases h2 : countOnes i = 1 <;> simp [h1, h2]
  refine ⟨hparts, fun p hp => ?_⟩
  rw [h.equities, hn, getEquity_eq, h9]
  have hS : ∑ q ∈ range 9, ((r.wins q : ℚ) + r.ties q) = (totalWeight sd : ℚ) - winsOf sd [8] := by
    rw [Finset.sum_congr rfl fun q hq => hparts q (Finset.mem_range.1 hq)]
    clear hparts hmask hlt h
    induction sd with
    | nil =>
      have : ∀ q, partsWithoutNinth [] q = 0 := fun _ => rfl
      simp [this, winsOf, weightOf, totalWeight]
    | cons x sd ih =>
      have ih := ih fun y hy => hl y (by simp [hy])
      have hx := hl x (by simp)
      unfold winsOf partsWithoutNinth at ih ⊢
      simp only [weightOf_cons, totalWeight_cons, List.map_cons, List.sum_cons, Finset.sum_add_distrib]
      rw [ih]
      push_cast
      have hne : winners x.2 x.1 ≠ [] := winners_ne_nil (by omega)
      have hnd : (otherWinners x).Nodup := (winners_nodup x.2 x.1).filter _
      have hlt : ∀ i ∈ otherWinners x, i < 9 := fun i hi => hx ▸ winners_lt (List.mem_filter.1 hi).1
      have hsum : ∑ q ∈ range 9, partWithoutNinth q x = if winners x.2 x.1 = [8] then 0 else (Spec.dealWeight x.1 : ℚ) := by
        unfold partWithoutNinth
        rw [← Finset.sum_filter]
        have hf : (range 9).filter (· ∈ otherWinners x) = (otherWinners x).toFinset := by
          ext i
          rw [Finset.mem_filter, List.mem_toFinset, Finset.mem_range]
          exact ⟨fun h => h.2, fun h => ⟨hlt i h, h⟩⟩
        rw [hf, Finset.sum_const, List.toFinset_card_of_nodup hnd, nsmul_eq_mul]
        have hiff : otherWinners x = [] ↔ winners x.2 x.1 = [8] := by
          have hW := winners_nodup x.2 x.1
          unfold otherWinners
          rw [List.filter_eq_nil_iff]
          constructor
          · intro hall
            have hall : ∀ a ∈ winners x.2 x.1, a = 8 := fun a ha => by simpa using hall a ha
            have := List.eq_replicate_of_mem hall
            rw [this] at hW hne ⊢
            have hle := List.nodup_replicate.1 hW
            have : (winners x.2 x.1).length ≠ 0 := by
              intro h0
              rw [h0] at hne
              exact hne rfl
            rw [show (winners x.2 x.1).length = 1 by omega]
            rfl
          · intro h a ha
            rw [h] at ha
            simpa using ha
        by_cases h8 : winners x.2 x.1 = [8]
        · rw [if_pos h8, hiff.2 h8]; simp
        · rw [if_neg h8]
          have : ((otherWinners x).length : ℚ) ≠ 0 := by
            intro h0
            have h0 : (otherWinners x).length = 0 := by exact_mod_cast h0
            exact h8 (hiff.1 (List.length_eq_zero_iff.1 h0))
          field_simp
      rw [hsum]
      split <;> ring
  rw [hS, List.getElem?_map, List.getElem?_range hp, Option.map_some, hparts p hp]

/-- The ninth player gets nothing, whatever the weights. -/
theorem Calc.ninth (h : Calc sqrt ex ranges b d r s flag r0 hist sd) (h9 : ranges.length = 9) :
    r.wins 8 = 0 ∧ r.ties 8 = 0 ∧ (r.equities[8]? = some (some 0) ∨ r.equities = List.replicate 9 none) := by
  have hn := h.players
  have hl : ∀ x ∈ sd, x.1.length = 9 := fun x hx => (h.deals x hx).2.trans h9
  have hb : ∀ i, i.testBit 8 = true → 2 ^ 8 ≤ i := by
    intro i hi
    by_contra hc
    rw [Nat.testBit_lt_two_pow (by omega)] at hi
    cases hi
  have hwins : r.wins 8 = 0 := by
    rw [h.counts.wins 8 (by omega), h.counts.mask _ (by rw [h9]; decide)]
    unfold weightOf
    rw [List.filter_eq_nil_iff.2]
    · rfl
    · intro x hx hc
      have := (nine_mask (hl x hx)).1
      rw [decide_eq_true_iff] at hc
      omega
  have hties : r.ties 8 = 0 := by
    rw [h.ties (by rw [hn, h9]; decide), hn, h9]
    have : ∀ x ∈ hist, (∑ i ∈ range (2 ^ 9), maskTies x.1 8 i) = 0 := by
      intro x hx
      apply Finset.sum_eq_zero
      intro i hi
      unfold maskTies
      split
      · rename_i hc
        obtain ⟨sd', h1, h2⟩ := h.batches x hx
        unfold tieShare
        rw [h2 i (by rw [h9]; exact Finset.mem_range.1 hi)]
        have : weightOf sd' (fun x => u8Mask (winners x.2 x.1) = i) = 0 := by
          unfold weightOf
          rw [List.filter_eq_nil_iff.2]
          · rfl
          · intro y hy he
            have k := (nine_mask (x := y) ((showdowns_length h.wf y (h1 y hy)).trans h9)).1
            rw [decide_eq_true_iff] at he
            have := hb i hc.1
            omega
        rw [this]
        simp
      · rfl
    rw [List.map_congr_left this]
    simp
  refine ⟨hwins, hties, ?_⟩
  rw [h.equities, hn, getEquity_eq, h9]
  unfold fdiv
  by_cases hS : ∑ q ∈ range 9, ((r.wins q : ℚ) + r.ties q) = 0
  · right
    rw [hS]
    simp
  · left
    rw [List.getElem?_map, List.getElem?_range (by decide), Option.map_some, if_neg hS, hwins, hties]
    simp

/-- C72 (finding): in every calculation with nine players, whatever the cards, weights, threads and also when cancelled, the ninth player has no
win and no share of a tie, and the ninth equity is 0, or all equities are NaN. -/
theorem C72_ninth (hwf : ∀ r ∈ ranges, WfRange r) (hb : CardMask b) (hd : CardMask d) (h9 : ranges.length = 9)
    (h : ExactEquity ranges b d nT cancelled stopped (.ok r) sent ∨ ∃ target, ApproxEquity sqrt ranges b d nT target cancelled (.ok r) sent) :
    r.wins 8 = 0 ∧ r.ties 8 = 0 ∧ (r.equities[8]? = some (some 0) ∨ r.equities = List.replicate 9 none) := by
  rcases h with h | ⟨target, h⟩
  · obtain ⟨_, _, _, _, _, _, hlen, hc⟩ := exact_calc hwf hb hd h
    exact hc.ninth h9
  · obtain ⟨s, flag, r0, hist, sd, hrun, _⟩ := approx_run hwf hb hd h
    exact hrun.calc.ninth h9

/-- C72: the equities that `exact_equity` reports for nine players are those of a game in which the pot is divided among the winners other than
the ninth player, and pots that the ninth player wins alone do not count at all. -/
theorem C72_exact (hwf : ∀ r ∈ ranges, WfRange r) (hb : CardMask b) (hd : CardMask d) (hT : 0 < nT) (h9 : ranges.length = 9)
    (hw : ∀ x ∈ showdowns (specRanges ranges) (maskCards b) (maskCards d), (otherWinners x).length ∣ Spec.dealWeight x.1 ∨ otherWinners x = [])
    (h : ExactEquity ranges b d nT cancelled false (.ok r) sent) :
    let sd := showdowns (specRanges ranges) (maskCards b) (maskCards d)
    (∀ p < 9, (r.wins p : ℚ) + r.ties p = partsWithoutNinth sd p) ∧
    ∀ p < 9, r.equities[p]? = some (fdiv (partsWithoutNinth sd p) ((totalWeight sd : ℚ) - winsOf sd [8])) := by
  intro sd
  obtain ⟨s, ds, total, size, flag, r0, hist, D, hrun, hlen⟩ := exact_run hwf hb hd h
  obtain ⟨_, _, hcalc⟩ := hrun.calc
  obtain ⟨_, _, _, hall⟩ := hrun.counts
  have hc := (hall hT rfl).2
  have : Calc id s.calcExact ranges b d r s flag r0 hist sd :=
    { hcalc with counts := hc, legal := fun x hx => (legal_iff.2 hx).1 }
  exact this.nine h9 hw

/-- C72: the same for `approx_equity` and the showdowns that it evaluated. -/
theorem C72_approx {target : ℚ} (hwf : ∀ r ∈ ranges, WfRange r) (hb : CardMask b) (hd : CardMask d) (h9 : ranges.length = 9)
    (hw : ∀ x ∈ showdowns (specRanges ranges) (maskCards b) (maskCards d), (otherWinners x).length ∣ Spec.dealWeight x.1 ∨ otherWinners x = [])
    (h : ApproxEquity sqrt ranges b d nT target cancelled (.ok r) sent) :
    ∃ sd : List (List WHand × List Nat), (∀ x ∈ sd, x ∈ showdowns (specRanges ranges) (maskCards b) (maskCards d)) ∧
      r.evalCount = sd.length ∧ (∀ p < 9, (r.wins p : ℚ) + r.ties p = partsWithoutNinth sd p) ∧
      ∀ p < 9, r.equities[p]? = some (fdiv (partsWithoutNinth sd p) ((totalWeight sd : ℚ) - winsOf sd [8])) := by
  obtain ⟨s, flag, r0, hist, sd, hrun, _⟩ := approx_run hwf hb hd h
  exact ⟨sd, fun x hx => legal_iff.1 (hrun.legal x hx), hrun.counts.2, hrun.calc.nine h9 hw⟩

/-- C72 (finding): if the ninth player wins every showdown alone, all nine equities are NaN. -/
theorem C72_all_nan (hwf : ∀ r ∈ ranges, WfRange r) (hb : CardMask b) (hd : CardMask d) (hT : 0 < nT) (h9 : ranges.length = 9)
    (hw : ∀ x ∈ showdowns (specRanges ranges) (maskCards b) (maskCards d), winners x.2 x.1 = [8])
    (h : ExactEquity ranges b d nT cancelled false (.ok r) sent) : ∀ p < 9, r.equities[p]? = some none := by
  have ho : ∀ x ∈ showdowns (specRanges ranges) (maskCards b) (maskCards d), otherWinners x = [] := by
    intro x hx
    unfold otherWinners
    rw [hw x hx]
    rfl
  obtain ⟨_, h2⟩ := C72_exact hwf hb hd hT h9 (fun x hx => Or.inr (ho x hx)) h
  have e : winsOf (showdowns (specRanges ranges) (maskCards b) (maskCards d)) [8] =
      totalWeight (showdowns (specRanges ranges) (maskCards b) (maskCards d)) := by
    unfold winsOf weightOf totalWeight
    rw [List.filter_eq_self.2 fun x hx => decide_eq_true (hw x hx)]
  intro p hp
  rw [h2 p hp, e, sub_self]
  simp [fdiv]

/-- The example of C32: nine hands, the ninth holds the only pair; all equities are NaN. -/
example (nT : Nat) (hT : 0 < nT) : (∃ r sent, ExactEquity nineHands nineBoard 0 nT false false (.ok r) sent) ∧
    ∀ cancelled r sent, ExactEquity nineHands nineBoard 0 nT cancelled false (.ok r) sent → ∀ p < 9, r.equities[p]? = some none := by
  refine ⟨nine_run nT, ?_⟩
  have hall : ∀ x ∈ showdowns (specRanges nineHands) (maskCards nineBoard) (maskCards 0), winners x.2 x.1 = [8] := by decide +kernel
  have hwf := nine_wf
  have hlen : nineHands.length = 9 := by decide
  have hb : CardMask nineBoard := by unfold CardMask; decide
  generalize nineHands = rs at *
  generalize nineBoard = bd at *
  intro cancelled r sent h
  exact C72_all_nan hwf hb zero_deck hT hlen hall h

end Pokers
