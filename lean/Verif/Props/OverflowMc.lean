import Verif.Proofs.CheckedMc
import Verif.Props.Rates
/-!
# Overflow of the counters in the random simulation (C59)

`ApproxEquityC` is `approx_equity` with the overflow checks of a debug build in the threads.  A release build goes on with the wrong
counter where this model panics.
-/
namespace Pokers
open Spec CombinedRange
open Finset (range)

variable {sqrt : ℚ → ℚ} {target : ℚ} {ranges : List (List Combo)} {b d nT : Nat} {cancelled : Bool} {r : Results} {sent : List Nat}

/-- C59: if the number of evaluations times `100` for each player is below `2^64`, the simulation could not have overflowed: every
result possible without the checks is possible with them. -/
theorem C59_no_overflow (hwf : ∀ r ∈ ranges, WfRange r) (hb : CardMask b) (hd : CardMask d) (h100 : ∀ r ∈ ranges, ∀ c ∈ r, c.w ≤ 100)
    (h : ApproxEquity sqrt ranges b d nT target cancelled (.ok r) sent) (hroom : r.evalCount * 100 ^ ranges.length < 2 ^ 64) :
    ApproxEquityC sqrt ranges b d nT target cancelled (.ok r) sent := by
  obtain ⟨p, hp, h⟩ := h
  refine ⟨p, hp, ?_⟩
  cases p with
  | error e => exact h
  | ok s =>
    obtain ⟨r0, flag, w, h1, h2, h3, h4, h5⟩ := h
    have hr : McReady ranges b d s := ⟨hwf, hb, hd, hp⟩
    refine ⟨r0, flag, w, h1, h2.checked hr h100 h1 ?_, h3, h4, h5⟩
    obtain ⟨hist, Dr, Dl, hI⟩ := McInv.steps hr h2
    have e : w.evals nT = r.evalCount := by
      injection h4 with h4
      rw [h4, (finishResults_counts s flag w.shared.results).2.2.2.1]
      unfold McWorld.evals
      rw [Finset.sum_eq_zero fun t ht => ?_, Nat.add_zero]
      have ht := Finset.mem_range.1 ht
      have e2 : (w.locals t).stats.evalCount = (Dl t).length := congrArg (fun x : FT => x.2) (hI.loc t ht)
      have hl := hI.len t ht
      rw [h3 t ht] at hl
      rw [e2]
      exact hl
    rw [e]
    exact hroom

/-- C59: while there is room for one more evaluation no thread panics, whatever the schedule and the random values. -/
theorem C59_no_panic {s : Sim} (hr : McReady ranges b d s) (h100 : ∀ r ∈ ranges, ∀ c ∈ r, c.w ≤ 100) {r0 : Results} {flag : Nat}
    (hr0 : startResults s = some (r0, flag)) {w : McWorld} (hs : McStepsC sqrt target s nT (McWorld.init s r0 cancelled) w)
    (hroom : (w.evals nT + 1) * 100 ^ ranges.length < 2 ^ 64) {t : Nat} (ht : t < nT) : (w.locals t).pc ≠ .panicked := by
  obtain ⟨_, _, _, hI⟩ := McInv.steps hr (hs.unchecked hr h100 hr0 hroom)
  exact hI.fine t ht

/-- C59: a simulation with the checks that returns has counted correctly, and all its hand counters are below `2^64`. -/
theorem C59_returned (hwf : ∀ r ∈ ranges, WfRange r) (hb : CardMask b) (hd : CardMask d)
    (h : ApproxEquityC sqrt ranges b d nT target cancelled (.ok r) sent) :
    ApproxEquity sqrt ranges b d nT target cancelled (.ok r) sent ∧
    ∀ k < NUM_HANDS * ranges.length, (r.handResults k).wins < 2 ^ 64 ∧ (r.handResults k).ties < 2 ^ 64 ∧ (r.handResults k).total < 2 ^ 64 := by
  obtain ⟨p, hp, h⟩ := h
  cases p with
  | error e => cases h.1
  | ok s =>
    obtain ⟨r0, flag, w, h1, h2, h3, h4, h5⟩ := h
    have hr : McReady ranges b d s := ⟨hwf, hb, hd, hp⟩
    obtain ⟨g1, g2, _⟩ := h2.sound hr h1 (fun t ht => by rw [h3 t ht]; decide)
    refine ⟨⟨.ok s, hp, r0, flag, w, h1, g1, h3, h4, h5⟩, fun k hk => ?_⟩
    have hx := g2 k (by rw [hr.fields.1]; exact hk)
    injection h4 with h4
    have hc := (finishResults_counts s flag w.shared.results).2.2.2.2 k
    rw [← h4] at hc
    have e1 : (r.handResults k).wins = (w.shared.results.handResults k).wins := congrArg (fun c : Cell => c.1) hc
    have e2 : (r.handResults k).ties = (w.shared.results.handResults k).ties := congrArg (fun c : Cell => c.2.1) hc
    have e3 : (r.handResults k).total = (w.shared.results.handResults k).total := congrArg (fun c : Cell => c.2.2.1) hc
    rw [e1, e2, e3]
    exact hx

theorem deal_eq {blocked : List Nat} (h100 : ∀ r ∈ ranges, ∀ c ∈ r, c.w = 100) {dd : List WHand}
    (hd : dd ∈ deals (specRanges ranges) blocked) : Spec.dealWeight dd = 100 ^ ranges.length := by
  unfold deals at hd
  obtain ⟨h1, h2⟩ := (mem_choices _ _).1 (List.mem_filter.1 hd).1
  have hlen : dd.length = ranges.length := by rw [h1]; simp [specRanges]
  unfold Spec.dealWeight
  rw [List.eq_replicate_of_mem (l := dd.map fun h => h.2.2) (a := 100) ?_, List.prod_replicate, List.length_map, hlen]
  intro x hx
  obtain ⟨y, hy, rfl⟩ := List.mem_map.1 hx
  obtain ⟨i, hi, rfl⟩ := List.getElem_of_mem hy
  have := h2 i hi (by rw [← h1]; exact hi)
  unfold specRanges at this
  rw [List.getElem_map, List.mem_map] at this
  obtain ⟨k, hk, he⟩ := this
  rw [← he]
  exact h100 _ (List.getElem_mem _) k hk

/-- C59 (finding): with eight or nine players whose hands have the default weight 100, the first batch of 4096 evaluations already
weighs more than `2^64`: a simulation that returns has made no evaluation at all, and all its counters are zero. -/
theorem C59_eight_players (hwf : ∀ r ∈ ranges, WfRange r) (hb : CardMask b) (hd : CardMask d) (h8 : 8 ≤ ranges.length)
    (h100 : ∀ r ∈ ranges, ∀ c ∈ r, c.w = 100) (h : ApproxEquityC sqrt ranges b d nT target cancelled (.ok r) sent) :
    r.evalCount = 0 ∧ (∀ p < ranges.length, r.wins p = 0) ∧ ∀ i < 2 ^ ranges.length, r.winsByMask i = 0 := by
  have hA := (C59_returned hwf hb hd h).1
  obtain ⟨s', flag', r0', hist, sd, hrun, _⟩ := approx_run hwf hb hd hA
  obtain ⟨hC, hlen⟩ := hrun.counts
  obtain ⟨p, hp, h⟩ := h
  cases p with
  | error e => cases h.1
  | ok s =>
    obtain ⟨r0, flag, w, h1, h2, h3, h4, h5⟩ := h
    have hr : McReady ranges b d s := ⟨hwf, hb, hd, hp⟩
    obtain ⟨_, _, g3⟩ := h2.sound hr h1 (fun t ht => by rw [h3 t ht]; decide)
    injection h4 with h4
    have he : r.evalCount = 0 := by
      rw [h4, (finishResults_counts s flag w.shared.results).2.2.2.1]
      refine g3 ⟨100 ^ ranges.length, ?_, fun x hx => (deal_eq h100 hx.1).ge⟩
      have : 100 ^ 8 ≤ 100 ^ ranges.length := Nat.pow_le_pow_right (by decide) h8
      omega
    have hsd : sd = [] := List.length_eq_zero_iff.1 (by rw [← hlen]; exact he)
    have hmask : ∀ i < 2 ^ ranges.length, r.winsByMask i = 0 := by
      intro i hi
      rw [hC.mask i hi, hsd]
      rfl
    exact ⟨he, fun p hp => by rw [hC.wins p hp]; exact hmask _ (Nat.pow_lt_pow_right (by decide) hp), hmask⟩

/-- C59 (finding): with known hands of weight 100 the bound is sharp: a simulation that returns has made less than
`2^64 / 100^n` evaluations. -/
theorem C59_known_hands {cs : List Combo} (h : Hands cs) (h0 : 0 < cs.length) (hb : CardMask b) (hd : CardMask d)
    (hr : ApproxEquityC sqrt (cs.map fun c => [c]) b d nT target cancelled (.ok r) sent) : r.evalCount * 100 ^ cs.length < 2 ^ 64 := by
  have hwf : ∀ r ∈ cs.map (fun c => [c]), WfRange r := by
    intro r hr
    obtain ⟨k, hk, rfl⟩ := List.mem_map.1 hr
    intro c hc
    rw [List.mem_singleton] at hc
    subst hc
    exact h.wf c hk
  have h100 : ∀ r ∈ cs.map (fun c => [c]), ∀ c ∈ r, c.w = 100 := by
    intro r hr c hc
    obtain ⟨k, hk, rfl⟩ := List.mem_map.1 hr
    rw [List.mem_singleton] at hc
    subst hc
    exact h.full c hk
  obtain ⟨hA, hF⟩ := C59_returned hwf hb hd hr
  obtain ⟨s, flag, r0, hist, sd, hrun, _⟩ := approx_run hwf hb hd hA
  obtain ⟨hC, hlen⟩ := hrun.counts
  have hc := h.wf (cs[0]) (List.getElem_mem h0)
  have hp : 0 < (cs.map fun c => [c]).length := by rw [List.length_map]; exact h0
  have hcell := hC.hand 0 hp _ hc.1 _ hc.2.1 hc.2.2
  have e3 : (r.handResults (NUM_HANDS * 0 + getCardIndex (cs[0]).c1 (cs[0]).c2)).total = handTotal sd 0 (cs[0]).c1 (cs[0]).c2 :=
    congrArg (fun c : Cell => c.2.2.1) hcell
  have hlt := (hF _ (cell_lt hp hc.1 hc.2.1 hc.2.2)).2.2
  rw [e3] at hlt
  rw [hlen]
  refine lt_of_le_of_lt (le_of_eq ?_) hlt
  have hlegal := hrun.legal
  clear hlt e3 hcell hC hlen hrun
  unfold handTotal
  induction sd with
  | nil => rw [weightOf_nil]; exact Nat.zero_mul _
  | cons x sd ih =>
    have hx := hlegal x (by simp)
    have hw := deal_eq h100 hx.1
    rw [List.length_map] at hw
    have hH : Holds 0 (cs[0]).c1 (cs[0]).c2 x.1 := by
      have hdd := hx.1
      unfold deals at hdd
      obtain ⟨g1, g2⟩ := (mem_choices _ _).1 (List.mem_filter.1 hdd).1
      have g1 : x.1.length = cs.length := by rw [g1]; simp [specRanges]
      have hl : 0 < x.1.length := by rw [g1]; exact h0
      have := g2 0 hl (by simpa [specRanges] using h0)
      unfold specRanges at this
      rw [List.getElem_map, List.getElem_map, List.map_singleton, List.mem_singleton] at this
      refine ⟨hl, Or.inl ?_⟩
      rw [List.getD_eq_getElem _ _ hl, this]
      exact ⟨rfl, rfl⟩
    rw [weightOf_cons, if_pos hH, List.length_cons, Nat.succ_mul, ih (fun y hy => hlegal y (by simp [hy])), hw, Nat.add_comm]

/-- Aces against kings on a flop, three threads of one batch each: the result is possible with the checks. -/
example (sqrt : ℚ → ℚ) : ∃ r sent, ApproxEquityC sqrt twoHands flopMask 0 3 (1 / 100) false (.ok r) sent ∧ r.evalCount = 12288 := by
  obtain ⟨r, sent, h, he⟩ := two_approx sqrt (1 / 100) 3 false
  exact ⟨r, sent, C59_no_overflow (by unfold WfRange twoHands; decide) (by unfold CardMask; decide) (by unfold CardMask; decide)
    (by decide) h (by rw [he]; decide), he⟩

/-- Eight pairs of aces to sevens. -/
def eightHands : List Combo := sevenHands ++ [⟨22, 23, 100⟩]

/-- Without the checks eight players get their 4096 evaluations. -/
theorem eight_approx (sqrt : ℚ → ℚ) (target : ℚ) (nT : Nat) (cancelled : Bool) :
    ∃ r sent, ApproxEquity sqrt (eightHands.map fun c => [c]) 0 0 nT target cancelled (.ok r) sent ∧ r.evalCount = 4096 * nT := by
  have hprep : ∃ s, PrepareApprox (eightHands.map fun c => [c]) 0 0 (.ok s) := by
    refine C39_approx_ok (s0 := Sim.new ((eightHands.map fun c => [c]).map fun h => removeConflictingCombos h 0 0)
      (fromRanges ((eightHands.map fun c => [c]).map fun h => removeConflictingCombos h 0 0)) 0 0 true) ?_
    unfold prepareExact
    rw [show validate (List.length _) _ 0 = none by decide +kernel]
    show (if _ then _ else _) = _
    rw [if_neg (by decide +kernel)]
  obtain ⟨s, hs⟩ := hprep
  exact exists_run sqrt target (by unfold WfRange eightHands sevenHands; decide) (by unfold CardMask; decide) (by unfold CardMask; decide) hs
    (by decide +kernel) nT cancelled

/-- With them this result is impossible. -/
example (sqrt : ℚ → ℚ) : ∃ r sent, ApproxEquity sqrt (eightHands.map fun c => [c]) 0 0 2 (1 / 100) false (.ok r) sent ∧
    r.evalCount = 8192 ∧ ¬ ApproxEquityC sqrt (eightHands.map fun c => [c]) 0 0 2 (1 / 100) false (.ok r) sent := by
  obtain ⟨r, sent, h, he⟩ := eight_approx sqrt (1 / 100) 2 false
  refine ⟨r, sent, h, he, fun hc => ?_⟩
  have := (C59_eight_players (by unfold WfRange eightHands sevenHands; decide) (by unfold CardMask; decide) (by unfold CardMask; decide)
    (by decide) (by decide) hc).1
  omega

/-- Seven known hands: at most 184467 evaluations, that is 45 batches. -/
example (sqrt : ℚ → ℚ) {r : Results} {sent : List Nat}
    (h : ApproxEquityC sqrt (sevenHands.map fun c => [c]) 0 0 4 (1 / 1000) false (.ok r) sent) : r.evalCount ≤ 184467 := by
  have := C59_known_hands seven_hands (by decide) (by unfold CardMask; decide) (by unfold CardMask; decide) h
  have e : sevenHands.length = 7 := by decide
  rw [e] at this
  omega

end Pokers
