import Verif.Proofs.Symmetry
import Verif.Props.Exact
/-!
# Exchanging the players (C49)
-/
namespace Pokers
open Spec CombinedRange

theorem specRanges_permute (σ : Nat → Nat) (ranges : List (List Combo)) :
    specRanges (permute [] σ ranges) = permute [] σ (specRanges ranges) := by
  unfold specRanges permute
  rw [List.map_map, List.length_map]
  apply List.map_congr_left
  intro i _
  simp only [Function.comp_apply, List.getD_eq_getElem?_getD, List.getElem?_map]
  cases ranges[σ i]? <;> rfl

theorem mem_permute {α : Type} {a : α} {σ τ : Nat → Nat} {l : List α} (h : PermOn l.length σ τ) {x : α} :
    x ∈ permute a σ l ↔ x ∈ l := (permute_perm a h).mem_iff

theorem mem_maskPlayers {n m i : Nat} : i ∈ maskPlayers n m ↔ i < n ∧ m.testBit i = true := by
  unfold maskPlayers
  rw [List.mem_filter, List.mem_range]

theorem maskPlayers_winners {n m : Nat} {B : List Nat} {d : List WHand} (hn : d.length = n) :
    winners B d = maskPlayers n m ↔ ∀ i < n, (i ∈ winners B d ↔ m.testBit i = true) := by
  constructor
  · intro h i hi
    rw [h, mem_maskPlayers]
    simp [hi]
  · intro h
    unfold winners maskPlayers at *
    rw [hn] at *
    apply List.filter_congr
    intro i hi
    rw [List.mem_range] at hi
    have := h i hi
    rw [List.mem_filter, List.mem_range] at this
    simp only [hi, true_and] at this
    by_cases hb : m.testBit i = true
    · rw [hb]; exact this.2 hb
    · have h1 := mt this.1 hb
      rw [Bool.not_eq_true] at hb h1
      rw [hb, h1]

/-- C49: exchanging the players.  The exact results for the permuted ranges are the permuted exact results: for every hand the wins,
ties, total and tie share, and with up to eight players the wins of each player and the counts of the winner masks. -/
theorem C49_player_symmetry {ranges : List (List Combo)} {b d nT nT' : Nat} {cancelled cancelled' : Bool} {r r' : Results}
    {sent sent' : List Nat} (hwf : ∀ r ∈ ranges, WfRange r) (hb : CardMask b) (hd : CardMask d) (hT : 0 < nT) (hT' : 0 < nT')
    {σ τ : Nat → Nat} (hσ : PermOn ranges.length σ τ)
    (h : ExactEquity ranges b d nT cancelled false (.ok r) sent)
    (h' : ExactEquity (permute [] σ ranges) b d nT' cancelled' false (.ok r') sent') :
    (∀ p < ranges.length, ∀ x < 52, ∀ y < 52, x ≠ y →
      let u := r.handResults (NUM_HANDS * σ p + getCardIndex x y)
      let u' := r'.handResults (NUM_HANDS * p + getCardIndex x y)
      u'.wins = u.wins ∧ u'.ties = u.ties ∧ u'.total = u.total ∧ u'.correctedTies = u.correctedTies) ∧
    (ranges.length ≤ 8 →
      (∀ p < ranges.length, r'.wins p = r.wins (σ p)) ∧
      ∀ m' < 2 ^ ranges.length, ∀ m < 2 ^ ranges.length, (∀ i < ranges.length, m'.testBit i = m.testBit (σ i)) →
        r'.winsByMask m' = r.winsByMask m) := by
  have hwf' : ∀ r ∈ permute [] σ ranges, WfRange r := fun r hr => hwf r ((mem_permute hσ).1 hr)
  have hn : (permute [] σ ranges).length = ranges.length := permute_length _ _ _
  have hs : (specRanges ranges).length = ranges.length := by simp [specRanges]
  have hσ' : PermOn (specRanges ranges).length σ τ := by rw [hs]; exact hσ
  constructor
  · intro p hp x hx y hy hxy u u'
    obtain ⟨a1, a2, a3, a4⟩ := C31_hands hwf hb hd hT h (hσ.lt p hp) hx hy hxy
    obtain ⟨b1, b2, b3, b4⟩ := C31_hands hwf' hb hd hT' h' (p := p) (by rw [hn]; exact hp) hx hy hxy
    simp only [specRanges_permute] at b1 b2 b3 b4
    refine ⟨b1.trans (Eq.trans ?_ a1.symm), b2.trans (Eq.trans ?_ a2.symm), b3.trans (Eq.trans ?_ a3.symm), b4.trans (Eq.trans ?_ a4.symm)⟩
    · refine weightOf_permute hσ' _ _ _ _ fun z hz => ?_
      rw [hs] at hz
      rw [holds_permute (by rw [hz]; exact hp) (by rw [hz]; exact hσ.lt p hp), winners_single_permute (by rw [hz]; exact hσ) _ (by rw [hz]; exact hp)]
    · refine weightOf_permute hσ' _ _ _ _ fun z hz => ?_
      rw [hs] at hz
      rw [holds_permute (by rw [hz]; exact hp) (by rw [hz]; exact hσ.lt p hp), mem_winners_permute (by rw [hz]; exact hσ) _ (by rw [hz]; exact hp),
        Ne, winners_single_permute (by rw [hz]; exact hσ) _ (by rw [hz]; exact hp)]
    · refine weightOf_permute hσ' _ _ _ _ fun z hz => ?_
      rw [hs] at hz
      rw [holds_permute (by rw [hz]; exact hp) (by rw [hz]; exact hσ.lt p hp)]
    · exact handShares_permute hσ' _ _ (by rw [hs]; exact hp) x y
  · intro h8
    obtain ⟨a1, a2⟩ := C31_masks hwf hb hd hT h8 h
    obtain ⟨b1, b2⟩ := C31_masks hwf' hb hd hT' (by rw [hn]; exact h8) h'
    simp only [specRanges_permute, hn] at b1 b2
    constructor
    · intro p hp
      rw [b2 p hp, a2 _ (hσ.lt p hp)]
      refine weightOf_permute hσ' _ _ _ _ fun z hz => ?_
      rw [hs] at hz
      exact winners_single_permute (by rw [hz]; exact hσ) _ (by rw [hz]; exact hp)
    · intro m' hm' m hm hmm
      rw [b1 m' hm', a1 m hm]
      refine weightOf_permute hσ' _ _ _ _ fun z hz => ?_
      rw [hs] at hz
      rw [maskPlayers_winners (by rw [permute_length, hz]), maskPlayers_winners hz]
      constructor
      · intro h1 i hi
        have := h1 (τ i) (hσ.lt' i hi)
        rwa [mem_winners_permute (by rw [hz]; exact hσ) _ (by rw [hz]; exact hσ.lt' i hi), hmm _ (hσ.lt' i hi), hσ.right i hi] at this
      · intro h1 i hi
        rw [mem_winners_permute (by rw [hz]; exact hσ) _ (by rw [hz]; exact hi), hmm i hi]
        exact h1 _ (hσ.lt i hi)

/-- Exchanging two players: kings against aces on a flop.  Both calculations have complete runs. -/
example (nT : Nat) : PermOn twoHands.length (fun i => 1 - i) (fun i => 1 - i) ∧
    (∃ r sent, ExactEquity twoHands flopMask 0 nT false false (.ok r) sent) ∧
    ∃ r sent, ExactEquity (permute [] (fun i => 1 - i) twoHands) flopMask 0 nT false false (.ok r) sent := by
  refine ⟨⟨by decide, by decide, by decide, by decide⟩, two_run nT false, ?_⟩
  exact run_exists' (by unfold WfRange; decide) (by unfold CardMask; decide) (by unfold CardMask; decide)
    (by decide +kernel) (by decide +kernel) (by decide +kernel) nT false

end Pokers
