import Verif.Props.Laws
import Verif.Props.MonteCarlo
import Verif.Spec.Sample
/-!
# C97: certain outcomes are reported as certain

What holds in every possible showdown shows in the results of both calculations, also of cancelled ones and whatever the random
numbers are.
-/
namespace Pokers
open Spec CombinedRange

/-- Results of either calculation, with any number of threads, any scheduler, cancelled or not, and any random numbers. -/
def Computed (ranges : List (List Combo)) (b d : Nat) (r : Results) : Prop :=
  (∃ nT cancelled stopped sent, ExactEquity ranges b d nT cancelled stopped (.ok r) sent) ∨
  ∃ sqrt nT target cancelled sent, ApproxEquity sqrt ranges b d nT target cancelled (.ok r) sent

variable {ranges : List (List Combo)} {b d : Nat} {r : Results}

theorem Computed.calc (hwf : ∀ r ∈ ranges, WfRange r) (hb : CardMask b) (hd : CardMask d) (h : Computed ranges b d r) :
    ∃ sqrt ex s flag r0 hist sd, Calc sqrt ex ranges b d r s flag r0 hist sd ∧
      ∀ x ∈ sd, x ∈ showdowns (specRanges ranges) (maskCards b) (maskCards d) := by
  rcases h with ⟨nT, c, st, sent, h⟩ | ⟨sqrt, nT, target, c, sent, h⟩
  · obtain ⟨s, flag, r0, hist, dls, hsub, _, hc⟩ := exact_calc hwf hb hd h
    refine ⟨_, _, s, flag, r0, hist, _, hc, fun x hx => ?_⟩
    obtain ⟨D, hD, hx⟩ := List.mem_flatMap.1 hx
    unfold showdowns
    exact List.mem_flatMap.2 ⟨D, hsub.subset hD, hx⟩
  · obtain ⟨s, flag, r0, hist, sd, hrun, _⟩ := approx_run hwf hb hd h
    exact ⟨_, _, s, flag, r0, hist, sd, hrun.calc, fun x hx => legal_iff.1 (hrun.legal x hx)⟩

/-- The bits of the mask of a showdown are its winners. -/
theorem mask_winners {x : List WHand × List Nat} (h8 : x.1.length ≤ 8) {p : Nat} (hp : p < x.1.length) :
    (u8Mask (winners x.2 x.1)).testBit p = true ↔ p ∈ winners x.2 x.1 := by
  rw [winners_filter]
  rw [(u8Mask_filter _ x.1.length h8).2 p, List.mem_filter, List.mem_range]
  simp [hp]

variable {sqrt : ℚ → ℚ} {ex : Bool} {s : Sim} {flag : Nat} {r0 : Results} {hist : List (Batch × HandStats)}
  {sd : List (List WHand × List Nat)}

/-- A mask that was counted comes from a legal showdown. -/
theorem Calc.mask_source (h : Calc sqrt ex ranges b d r s flag r0 hist sd) {x : Batch × HandStats} (hx : x ∈ hist) {i : Nat}
    (hi : i < 2 ^ ranges.length) (h0 : x.1.winsByMask i ≠ 0) :
    ∃ y ∈ showdowns (specRanges ranges) (maskCards b) (maskCards d), u8Mask (winners y.2 y.1) = i := by
  obtain ⟨sd', h1, h2⟩ := h.batches x hx
  rw [h2 i hi] at h0
  by_contra hn
  push Not at hn
  apply h0
  unfold weightOf
  apply List.sum_eq_zero
  intro v hv
  obtain ⟨y, hy, rfl⟩ := List.mem_map.1 hv
  obtain ⟨hy1, hy2⟩ := List.mem_filter.1 hy
  exact absurd (of_decide_eq_true hy2) (hn y (h1 y hy1))

/-- If `p` is among the winners whenever `q` is, player `q` gets no more than `p`, and nothing alone. -/
theorem Calc.dominates (h : Calc sqrt ex ranges b d r s flag r0 hist sd) (h8 : ranges.length ≤ 8) {p q : Nat} (hp : p < ranges.length)
    (hq : q < ranges.length) (hpq : p ≠ q)
    (hdom : ∀ x ∈ showdowns (specRanges ranges) (maskCards b) (maskCards d), q ∈ winners x.2 x.1 → p ∈ winners x.2 x.1) :
    r.wins q = 0 ∧ r.ties q ≤ r.ties p := by
  have hn := h.players
  have hbit : ∀ {x : Batch × HandStats}, x ∈ hist → ∀ {i : Nat}, i < 2 ^ ranges.length → x.1.winsByMask i ≠ 0 →
      i.testBit q = true → i.testBit p = true := by
    intro x hx i hi h0 hb
    obtain ⟨y, hy, rfl⟩ := h.mask_source hx hi h0
    have hl := showdowns_length h.wf y hy
    rw [mask_winners (by omega) (by omega)] at hb ⊢
    exact hdom y hy hb
  constructor
  · have h2 : 2 ^ q < 2 ^ ranges.length := Nat.pow_lt_pow_right (by omega) hq
    rw [h.counts.wins q hq, h.masks (by rw [hn]; exact h2)]
    apply List.sum_eq_zero
    intro v hv
    obtain ⟨x, hx, rfl⟩ := List.mem_map.1 hv
    by_contra h0
    have := hbit hx h2 h0 (by simp)
    rw [Nat.testBit_two_pow, decide_eq_true_iff] at this
    exact hpq this.symm
  · rw [h.ties (by omega), h.ties (by omega)]
    apply List.sum_le_sum
    intro x hx
    apply Finset.sum_le_sum
    intro i hi
    rw [Finset.mem_range, hn] at hi
    unfold maskTies
    by_cases h0 : x.1.winsByMask i = 0
    · have : tieShare x.1 i = 0 := by simp [tieShare, h0]
      rw [this]
      simp
    · by_cases hb : i.testBit q = true
      · rw [hb, hbit hx hi h0 hb]
      · rw [if_neg (fun h => hb h.1)]
        split
        · exact Nat.cast_nonneg _
        · exact le_refl _

/-- A player who wins no showdown gets nothing. -/
theorem Calc.loses (h : Calc sqrt ex ranges b d r s flag r0 hist sd) (h8 : ranges.length ≤ 8) {p : Nat} (hp : p < ranges.length)
    (hdead : ∀ x ∈ showdowns (specRanges ranges) (maskCards b) (maskCards d), p ∉ winners x.2 x.1) :
    r.wins p = 0 ∧ r.ties p = 0 := by
  have hn := h.players
  have hz : ∀ {x : Batch × HandStats}, x ∈ hist → ∀ {i : Nat}, i < 2 ^ ranges.length → i.testBit p = true → x.1.winsByMask i = 0 := by
    intro x hx i hi hb
    by_contra h0
    obtain ⟨y, hy, rfl⟩ := h.mask_source hx hi h0
    have hl := showdowns_length h.wf y hy
    rw [mask_winners (by omega) (by omega)] at hb
    exact hdead y hy hb
  constructor
  · have h2 : 2 ^ p < 2 ^ ranges.length := Nat.pow_lt_pow_right (by omega) hp
    rw [h.counts.wins p hp, h.masks (by rw [hn]; exact h2)]
    apply List.sum_eq_zero
    intro v hv
    obtain ⟨x, hx, rfl⟩ := List.mem_map.1 hv
    exact hz hx h2 (by simp)
  · rw [h.ties (by omega)]
    apply List.sum_eq_zero
    intro v hv
    obtain ⟨x, hx, rfl⟩ := List.mem_map.1 hv
    apply Finset.sum_eq_zero
    intro i hi
    rw [Finset.mem_range, hn] at hi
    unfold maskTies
    split
    · rename_i hb
      simp [tieShare, hz hx hi hb.1]
    · rfl

/-- An equity that is a number is the part of the player in the sum of all. -/
theorem Calc.equity_value (h : Calc sqrt ex ranges b d r s flag r0 hist sd) {p : Nat} (hp : p < ranges.length) {e : ℚ}
    (he : r.equities[p]? = some (some e)) :
    0 < ∑ q ∈ Finset.range ranges.length, ((r.wins q : ℚ) + r.ties q) ∧
    e = ((r.wins p : ℚ) + r.ties p) / ∑ q ∈ Finset.range ranges.length, ((r.wins q : ℚ) + r.ties q) := by
  obtain ⟨h1, h2⟩ := h.equity_parts
  by_cases hS : 0 < ∑ q ∈ Finset.range ranges.length, ((r.wins q : ℚ) + r.ties q)
  · refine ⟨hS, ?_⟩
    obtain ⟨es, e1, e2, _, _, e5⟩ := h1 hS
    rw [e1, List.getElem?_map, e5 p hp] at he
    exact (Option.some.inj (Option.some.inj he)).symm
  · rw [(h2 hS).1, List.getElem?_replicate, if_pos hp] at he
    cases he

/-- C97: if player `p` wins or shares every pot that player `q` wins or shares, then the equity of `q` is not above that of `p`. -/
theorem C97_dominates (hwf : ∀ r ∈ ranges, WfRange r) (hb : CardMask b) (hd : CardMask d) (h8 : ranges.length ≤ 8)
    (h : Computed ranges b d r) {p q : Nat} (hp : p < ranges.length) (hq : q < ranges.length)
    (hdom : ∀ x ∈ showdowns (specRanges ranges) (maskCards b) (maskCards d), q ∈ winners x.2 x.1 → p ∈ winners x.2 x.1)
    {e f : ℚ} (he : r.equities[q]? = some (some e)) (hf : r.equities[p]? = some (some f)) : e ≤ f := by
  obtain ⟨_, _, _, _, _, _, _, hc, _⟩ := h.calc hwf hb hd
  by_cases hpq : p = q
  · subst hpq
    rw [he] at hf
    exact (Option.some.inj (Option.some.inj hf)).le
  obtain ⟨hS, e1⟩ := hc.equity_value hq he
  obtain ⟨_, e2⟩ := hc.equity_value hp hf
  obtain ⟨d1, d2⟩ := hc.dominates h8 hp hq hpq hdom
  rw [e1, e2, d1]
  apply div_le_div_of_nonneg_right _ hS.le
  have : (0 : ℚ) ≤ r.wins p := Nat.cast_nonneg _
  push_cast
  linarith

/-- C97: two players who always win or lose together have the same equity, to the last bit of the counters. -/
theorem C97_same (hwf : ∀ r ∈ ranges, WfRange r) (hb : CardMask b) (hd : CardMask d) (h8 : ranges.length ≤ 8)
    (h : Computed ranges b d r) {p q : Nat} (hp : p < ranges.length) (hq : q < ranges.length)
    (hsame : ∀ x ∈ showdowns (specRanges ranges) (maskCards b) (maskCards d), q ∈ winners x.2 x.1 ↔ p ∈ winners x.2 x.1) :
    r.wins p = r.wins q ∧ r.ties p = r.ties q ∧ r.equities[p]? = r.equities[q]? := by
  obtain ⟨_, _, _, _, _, _, _, hc, _⟩ := h.calc hwf hb hd
  by_cases hpq : p = q
  · subst hpq
    exact ⟨rfl, rfl, rfl⟩
  obtain ⟨a1, a2⟩ := hc.dominates h8 hp hq hpq fun x hx => (hsame x hx).1
  obtain ⟨b1, b2⟩ := hc.dominates h8 hq hp (Ne.symm hpq) fun x hx => (hsame x hx).2
  have e1 : r.wins p = r.wins q := by rw [a1, b1]
  have e2 : r.ties p = r.ties q := le_antisymm b2 a2
  refine ⟨e1, e2, ?_⟩
  rw [hc.equities, hc.players, getEquity_eq, List.getElem?_map, List.getElem?_map, List.getElem?_range hp, List.getElem?_range hq,
    Option.map_some, Option.map_some, e1, e2]

/-- C97: a player who is drawing dead has no wins, no ties and the equity 0. -/
theorem C97_dead (hwf : ∀ r ∈ ranges, WfRange r) (hb : CardMask b) (hd : CardMask d) (h8 : ranges.length ≤ 8)
    (h : Computed ranges b d r) {p : Nat} (hp : p < ranges.length)
    (hdead : ∀ x ∈ showdowns (specRanges ranges) (maskCards b) (maskCards d), p ∉ winners x.2 x.1) :
    r.wins p = 0 ∧ r.ties p = 0 ∧ ∀ e, r.equities[p]? = some (some e) → e = 0 := by
  obtain ⟨_, _, _, _, _, _, _, hc, _⟩ := h.calc hwf hb hd
  obtain ⟨h1, h2⟩ := hc.loses h8 hp hdead
  refine ⟨h1, h2, fun e he => ?_⟩
  rw [(hc.equity_value hp he).2, h1, h2]
  simp

/-- C97: if the same players win every showdown, they have equal equities, which add up to 1, although the shares are rounded. -/
theorem C97_settled (hwf : ∀ r ∈ ranges, WfRange r) (hb : CardMask b) (hd : CardMask d) (h8 : ranges.length ≤ 8)
    (h : Computed ranges b d r) {W : Finset Nat} (hW : W ⊆ Finset.range ranges.length)
    (hall : ∀ x ∈ showdowns (specRanges ranges) (maskCards b) (maskCards d), ∀ p < ranges.length, p ∈ winners x.2 x.1 ↔ p ∈ W)
    {p : Nat} (hp : p ∈ W) {e : ℚ} (he : r.equities[p]? = some (some e)) : e = 1 / (W.card : ℚ) := by
  obtain ⟨_, _, _, _, _, _, _, hc, _⟩ := h.calc hwf hb hd
  have hpn := Finset.mem_range.1 (hW hp)
  obtain ⟨hS, e1⟩ := hc.equity_value hpn he
  have hq : ∀ q ∈ Finset.range ranges.length, (r.wins q : ℚ) + r.ties q = if q ∈ W then (r.wins p : ℚ) + r.ties p else 0 := by
    intro q hq
    rw [Finset.mem_range] at hq
    split
    · rename_i hqW
      obtain ⟨a1, a2, _⟩ := C97_same hwf hb hd h8 h hpn hq fun x hx => by rw [hall x hx q hq, hall x hx p hpn]; simp [hqW, hp]
      rw [a1, a2]
    · rename_i hqW
      obtain ⟨a1, a2, _⟩ := C97_dead hwf hb hd h8 h hq fun x hx hw => hqW ((hall x hx q hq).1 hw)
      rw [a1, a2]
      simp
  rw [Finset.sum_congr rfl hq, Finset.sum_ite_mem, Finset.inter_eq_right.2 hW, Finset.sum_const, nsmul_eq_mul] at e1 hS
  have hc0 : (W.card : ℚ) ≠ 0 := by
    intro h0
    rw [h0, zero_mul] at hS
    exact lt_irrefl _ hS
  have hv0 : (r.wins p : ℚ) + r.ties p ≠ 0 := by
    intro h0
    rw [h0, mul_zero] at hS
    exact lt_irrefl _ hS
  rw [e1]
  field_simp

theorem pot_sum (sd : List (List WHand × List Nat)) (p : Nat) :
    (winsOf sd [p] : ℚ) + sharesOf sd p = (sd.map fun x => potShare p x * Spec.dealWeight x.1).sum := by
  unfold winsOf sharesOf
  rw [weightOf_points, sum_filter_map, ← List.sum_map_add]
  congr 1
  apply List.map_congr_left
  intro x _
  simp only [decide_eq_true_iff]
  unfold potShare
  by_cases h1 : winners x.2 x.1 = [p]
  · rw [if_pos h1, if_neg (fun h => h.2 h1), h1]
    simp
  · rw [if_neg h1]
    by_cases h2 : p ∈ winners x.2 x.1
    · rw [if_pos ⟨h2, h1⟩, if_pos h2, zero_add, one_div, div_eq_inv_mul]
    · rw [if_neg (fun h => h2 h.1), if_neg h2]
      simp

/-- C97: with weights that divide evenly the equity of a player lies between the smallest and the largest part of a pot that the
player can get. -/
theorem C97_bounds (hwf : ∀ r ∈ ranges, WfRange r) (hb : CardMask b) (hd : CardMask d) (h8 : ranges.length ≤ 8)
    (hw : WholeShares ranges b d) (h : Computed ranges b d r) {p : Nat} (hp : p < ranges.length) {lo hi : ℚ}
    (hlo : ∀ x ∈ showdowns (specRanges ranges) (maskCards b) (maskCards d), lo ≤ potShare p x)
    (hhi : ∀ x ∈ showdowns (specRanges ranges) (maskCards b) (maskCards d), potShare p x ≤ hi)
    {e : ℚ} (he : r.equities[p]? = some (some e)) : lo ≤ e ∧ e ≤ hi := by
  obtain ⟨_, _, _, _, _, _, sd, hc, hsd⟩ := h.calc hwf hb hd
  rw [(hc.exact_shares h8 hw).2 p hp, pot_sum] at he
  unfold fdiv at he
  split at he
  · cases he
  · rename_i h0
    have he := Option.some.inj (Option.some.inj he)
    have hpos : (0 : ℚ) < (totalWeight sd : ℚ) := lt_of_le_of_ne (Nat.cast_nonneg _) (Ne.symm h0)
    have ht : (totalWeight sd : ℚ) = (sd.map fun x => (Spec.dealWeight x.1 : ℚ)).sum := by
      unfold totalWeight
      rw [Nat.cast_list_sum, List.map_map]
      rfl
    have hm : ∀ c : ℚ, c * (totalWeight sd : ℚ) = (sd.map fun x => c * (Spec.dealWeight x.1 : ℚ)).sum := fun c => by
      rw [ht, List.sum_map_mul_left]
    rw [← he, le_div_iff₀ hpos, div_le_iff₀ hpos, hm, hm]
    exact ⟨List.sum_le_sum fun x hx => mul_le_mul_of_nonneg_right (hlo x (hsd x hx)) (Nat.cast_nonneg _),
      List.sum_le_sum fun x hx => mul_le_mul_of_nonneg_right (hhi x (hsd x hx)) (Nat.cast_nonneg _)⟩

/-! ## Hands -/

/-- C97: a hand with which its player wins every possible showdown alone wins all of its showdowns that were counted. -/
theorem C97_sure_hand (hwf : ∀ r ∈ ranges, WfRange r) (hb : CardMask b) (hd : CardMask d) (h : Computed ranges b d r) {p x y : Nat}
    (hp : p < ranges.length) (hx : x < 52) (hy : y < 52) (hxy : x ≠ y)
    (hsure : ∀ z ∈ showdowns (specRanges ranges) (maskCards b) (maskCards d), Holds p x y z.1 → winners z.2 z.1 = [p]) :
    let u := r.handResults (NUM_HANDS * p + getCardIndex x y)
    u.wins = u.total ∧ u.ties = 0 ∧ u.correctedTies = 0 := by
  obtain ⟨_, _, _, _, _, _, sd, hc, hsd⟩ := h.calc hwf hb hd
  have hcell := hc.counts.hand p hp x hx y hy hxy
  have e1 := congrArg (fun c : Cell => c.1) hcell
  have e2 := congrArg (fun c : Cell => c.2.1) hcell
  have e3 := congrArg (fun c : Cell => c.2.2.1) hcell
  have e4 := congrArg (fun c : Cell => c.2.2.2) hcell
  have f1 : handWins sd p x y = handTotal sd p x y := by
    unfold handWins handTotal weightOf
    congr 2
    apply List.filter_congr
    intro z hz
    rw [decide_eq_decide]
    exact ⟨fun h => h.1, fun h => ⟨h, hsure z (hsd z hz) h⟩⟩
  have hf : sd.filter (fun z => decide (Holds p x y z.1 ∧ p ∈ winners z.2 z.1 ∧ winners z.2 z.1 ≠ [p])) = [] := by
    rw [List.filter_eq_nil_iff]
    intro z hz hn
    have hn := of_decide_eq_true hn
    exact hn.2.2 (hsure z (hsd z hz) hn.1)
  have f2 : handTies sd p x y = 0 := by
    unfold handTies weightOf
    rw [hf]
    rfl
  have f3 : handShares sd p x y = 0 := by
    unfold handShares
    rw [hf]
    rfl
  exact ⟨(e1.trans f1).trans e3.symm, e2.trans f2, e4.trans f3⟩

/-- C97: a hand with which its player can win no showdown has no wins and no ties. -/
theorem C97_dead_hand (hwf : ∀ r ∈ ranges, WfRange r) (hb : CardMask b) (hd : CardMask d) (h : Computed ranges b d r) {p x y : Nat}
    (hp : p < ranges.length) (hx : x < 52) (hy : y < 52) (hxy : x ≠ y)
    (hdead : ∀ z ∈ showdowns (specRanges ranges) (maskCards b) (maskCards d), Holds p x y z.1 → p ∉ winners z.2 z.1) :
    let u := r.handResults (NUM_HANDS * p + getCardIndex x y)
    u.wins = 0 ∧ u.ties = 0 ∧ u.correctedTies = 0 := by
  obtain ⟨_, _, _, _, _, _, sd, hc, hsd⟩ := h.calc hwf hb hd
  have hcell := hc.counts.hand p hp x hx y hy hxy
  have e1 := congrArg (fun c : Cell => c.1) hcell
  have e2 := congrArg (fun c : Cell => c.2.1) hcell
  have e4 := congrArg (fun c : Cell => c.2.2.2) hcell
  have hf : sd.filter (fun z => decide (Holds p x y z.1 ∧ p ∈ winners z.2 z.1 ∧ winners z.2 z.1 ≠ [p])) = [] := by
    rw [List.filter_eq_nil_iff]
    intro z hz hn
    have hn := of_decide_eq_true hn
    exact hdead z (hsd z hz) hn.1 hn.2.1
  have hg : sd.filter (fun z => decide (Holds p x y z.1 ∧ winners z.2 z.1 = [p])) = [] := by
    rw [List.filter_eq_nil_iff]
    intro z hz hn
    have hn := of_decide_eq_true hn
    exact hdead z (hsd z hz) hn.1 (by rw [hn.2]; simp)
  have f1 : handWins sd p x y = 0 := by
    unfold handWins weightOf
    rw [hg]
    rfl
  have f2 : handTies sd p x y = 0 := by
    unfold handTies weightOf
    rw [hf]
    rfl
  have f3 : handShares sd p x y = 0 := by
    unfold handShares
    rw [hf]
    rfl
  exact ⟨e1.trans f1, e2.trans f2, e4.trans f3⟩

/-! ## Examples -/

/-- Two aces, a two, a three and a nine. -/
def fourAcesMask : Nat := 1 <<< 48 ||| 1 <<< 49 ||| 1 <<< 0 ||| 1 <<< 5 ||| 1 <<< 28

theorem fourAces_deck : CardMask fourAcesMask := by unfold CardMask; decide

theorem fourAces_win : ∀ x ∈ showdowns (specRanges twoHands) (maskCards fourAcesMask) (maskCards 0),
    winners x.2 x.1 = [0] ∧ Spec.dealWeight x.1 = 5000 := by decide +kernel

theorem fourAces_approx (sqrt : ℚ → ℚ) (target : ℚ) (nT : Nat) (cancelled : Bool) :
    ∃ r sent, ApproxEquity sqrt twoHands fourAcesMask 0 nT target cancelled (.ok r) sent ∧ r.evalCount = 4096 * nT := by
  obtain ⟨s, hs⟩ : ∃ s, PrepareApprox twoHands fourAcesMask 0 (.ok s) := by
    refine C39_approx_ok (s0 := Sim.new (twoHands.map fun h => removeConflictingCombos h fourAcesMask 0)
      (fromRanges (twoHands.map fun h => removeConflictingCombos h fourAcesMask 0)) fourAcesMask 0 true) ?_
    unfold prepareExact
    rw [show validate (List.length _) _ 0 = none by decide +kernel]
    show (if _ then _ else _) = _
    rw [if_neg (by decide +kernel)]
  exact exists_run sqrt target two_wf fourAces_deck zero_deck hs (by decide +kernel) nT cancelled

/-- The random simulation reports 1 for the quad aces, whatever the random numbers are and however early it is cancelled. -/
example (sqrt : ℚ → ℚ) (target : ℚ) (nT : Nat) (hT : 0 < nT) (cancelled : Bool) :
    ∃ r sent, ApproxEquity sqrt twoHands fourAcesMask 0 nT target cancelled (.ok r) sent ∧ r.equities[0]? = some (some 1) ∧
      r.equities[1]? = some (some 0) ∧ r.wins 1 = 0 := by
  obtain ⟨r, sent, h, hev⟩ := fourAces_approx sqrt target nT cancelled
  have hC : Computed twoHands fourAcesMask 0 r := Or.inr ⟨sqrt, nT, target, cancelled, sent, h⟩
  have hnum : ∀ p < 2, ∃ e, r.equities[p]? = some (some e) := by
    obtain ⟨sd, h1, h2, _, h4⟩ := C61_approx two_wf fourAces_deck zero_deck (by decide)
      (C61_two_players two_wf rfl (p := 0) (by decide) (by decide)) h
    have h0 : totalWeight sd ≠ 0 := by
      cases sd with
      | nil =>
        rw [List.length_nil] at h2
        omega
      | cons x L =>
        have := (fourAces_win x (h1 x (by simp))).2
        unfold totalWeight
        rw [List.map_cons, List.sum_cons, this]
        omega
    intro p hp
    rw [h4 p hp]
    unfold fdiv
    rw [if_neg (by exact_mod_cast h0)]
    exact ⟨_, rfl⟩
  obtain ⟨e0, he0⟩ := hnum 0 (by decide)
  obtain ⟨e1, he1⟩ := hnum 1 (by decide)
  have hd := C97_dead two_wf fourAces_deck zero_deck (by decide) hC (p := 1) (by decide)
    (fun x hx => by rw [(fourAces_win x hx).1]; decide)
  refine ⟨r, sent, h, ?_, ?_, hd.1⟩
  · rw [he0, C97_settled two_wf fourAces_deck zero_deck (by decide) hC (W := {0}) (by decide)
      (fun x hx p hp => by rw [(fourAces_win x hx).1]; simp) (p := 0) (by decide) he0]
    simp
  · rw [he1, hd.2.2 e1 he1]

/-- In `kickerHands` the first two players always share, and the third never wins without them. -/
theorem kicker_winners : ∀ x ∈ showdowns (specRanges kickerHands) (maskCards ninesMask) (maskCards 0),
    (1 ∈ winners x.2 x.1 ↔ 0 ∈ winners x.2 x.1) ∧ (2 ∈ winners x.2 x.1 → 0 ∈ winners x.2 x.1) := by decide +kernel

example (nT : Nat) : ∃ r sent, ExactEquity kickerHands ninesMask 0 nT true true (.ok r) sent ∧ r.equities[0]? = r.equities[1]? ∧
    ∀ e f, r.equities[2]? = some (some e) → r.equities[0]? = some (some f) → e ≤ f := by
  obtain ⟨r, sent, h⟩ := kicker_run nT true
  have hC : Computed kickerHands ninesMask 0 r := Or.inl ⟨nT, true, true, sent, h⟩
  exact ⟨r, sent, h, (C97_same kicker_wf nines_deck zero_deck (by decide) hC (p := 0) (q := 1) (by decide) (by decide)
    fun x hx => (kicker_winners x hx).1).2.2,
    fun e f he hf => C97_dominates kicker_wf nines_deck zero_deck (by decide) hC (p := 0) (q := 2) (by decide) (by decide)
      (fun x hx => (kicker_winners x hx).2) he hf⟩

/-- The same hands with weights that can be divided by 2 and 3. -/
def kickerWhole : List (List Combo) := [[⟨48, 4, 60⟩], [⟨49, 5, 100⟩], [⟨50, 6, 100⟩, ⟨46, 6, 100⟩]]

theorem whole_wf : ∀ r ∈ kickerWhole, WfRange r := by unfold WfRange kickerWhole; decide

/-- The first player gets a third or a half of the pot. -/
theorem whole_parts : ∀ x ∈ showdowns (specRanges kickerWhole) (maskCards ninesMask) (maskCards 0),
    1 / 3 ≤ potShare 0 x ∧ potShare 0 x ≤ 1 / 2 := by decide +kernel

example : ∀ r, Computed kickerWhole ninesMask 0 r → ∀ e, r.equities[0]? = some (some e) → 1 / 3 ≤ e ∧ e ≤ 1 / 2 := by
  intro r h e he
  refine C97_bounds whole_wf nines_deck zero_deck (by decide) (C61_multiples whole_wf (p := 0) (by decide) ?_) h (p := 0) (by decide)
    (fun x hx => (whole_parts x hx).1) (fun x hx => (whole_parts x hx).2) he
  intro c hc k h1 h2
  have hc : c ∈ ([⟨48, 4, 60⟩] : List Combo) := hc
  rw [List.mem_singleton] at hc
  subst hc
  have h2 : k ≤ 3 := h2
  interval_cases k <;> decide

example (nT : Nat) : ∃ r, Computed kickerWhole ninesMask 0 r := by
  obtain ⟨r, sent, h⟩ := run_exists' whole_wf nines_deck zero_deck (by decide +kernel) (by decide +kernel) (by decide +kernel) nT false
  exact ⟨r, Or.inl ⟨nT, false, false, sent, h⟩⟩

end Pokers
