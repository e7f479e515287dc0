import Verif.Proofs.ReleaseSame
import Verif.Proofs.ReleaseZero
import Verif.Proofs.AcesFlop
import Verif.Props.Shares
/-!
# The release build (C75)

A debug build panics when a counter overflows (C51).  A release build goes on: the model `ExactEquityR` computes with 64 bits and
with rounded `f64` numbers.
-/
namespace Pokers
open Spec CombinedRange Kernel

/-! ## After the threads have finished -/

/-- The counters of `v` are those of `u`, and the equity too unless nothing was counted. -/
structure KeepUnit (u v : UnitResults) : Prop where
  wins : v.wins = u.wins
  ties : v.ties = u.ties
  total : v.total = u.total
  shares : v.correctedTies = u.correctedTies
  equity : u.total ≠ 0 → v.equity = u.equity

theorem KeepUnit.refl (u : UnitResults) : KeepUnit u u := ⟨rfl, rfl, rfl, rfl, fun _ => rfl⟩

theorem KeepUnit.trans {u v w : UnitResults} (h : KeepUnit u v) (h' : KeepUnit v w) : KeepUnit u w :=
  ⟨h'.wins.trans h.wins, h'.ties.trans h.ties, h'.total.trans h.total, h'.shares.trans h.shares,
    fun h0 => (h'.equity (by rw [h.total]; exact h0)).trans (h.equity h0)⟩

theorem finalHandF_keep (u : UnitResults) (a : Agg) : KeepUnit u (finalHandF u a).1 := by
  unfold finalHandF
  split
  · split
    · exact ⟨rfl, rfl, rfl, rfl, fun _ => rfl⟩
    · exact ⟨rfl, rfl, rfl, rfl, fun h => absurd h (by omega)⟩
  · exact .refl u

theorem finalHandsF_keep (start size : Nat) (hr : Nat → UnitResults) : ∀ k, KeepUnit (hr k) ((finalHandsF start size hr).1 k) := by
  unfold finalHandsF
  induction size with
  | zero => exact fun k => .refl _
  | succ n ih =>
    intro k
    rw [List.range_succ, List.foldl_append, List.foldl_cons, List.foldl_nil]
    generalize List.foldl _ _ (List.range n) = x at ih
    obtain ⟨hr', a⟩ := x
    simp only at ih ⊢
    by_cases hk : k = start + n
    · subst hk; rw [Function.update_self]; exact (ih _).trans (finalHandF_keep _ _)
    · rw [Function.update_of_ne hk]; exact ih k

theorem finalPlayerF_keep (i : Nat) : ∀ fuel j hr cs, ∀ k, KeepUnit (hr k) ((finalPlayerF i fuel j hr cs).1 k) := by
  intro fuel
  induction fuel with
  | zero => intro j hr cs k; exact .refl _
  | succ fuel ih =>
    intro j hr cs k
    unfold finalPlayerF
    split
    · exact (finalHandsF_keep _ _ hr k).trans (ih _ _ _ k)
    · exact .refl _

/-- After the threads have finished, the counters are not changed. -/
theorem finishResultsF_keep (s : Sim) (flag : Nat) (r : Results) :
    (finishResultsF s flag r).wins = r.wins ∧ (finishResultsF s flag r).ties = r.ties ∧ (finishResultsF s flag r).winsByMask = r.winsByMask ∧
    (finishResultsF s flag r).evalCount = r.evalCount ∧ (finishResultsF s flag r).equities = (getEquityF s.nPlayers r).equities ∧
    ∀ k, KeepUnit (r.handResults k) ((finishResultsF s flag r).handResults k) := by
  have hc : ∀ k, KeepUnit (r.handResults k) ((generateFinalDataF s.nPlayers
      (getEquityF s.nPlayers { r with handResults := fixHandWeights s.handRanges flag r.handResults })).handResults k) := by
    intro k
    have h1 : KeepUnit (r.handResults k) (fixHandWeights s.handRanges flag r.handResults k) := by
      rw [fixHandWeights_keep]; exact ⟨rfl, rfl, rfl, rfl, fun _ => rfl⟩
    refine h1.trans ?_
    unfold generateFinalDataF
    simp only
    show KeepUnit (fixHandWeights s.handRanges flag r.handResults k) _
    generalize fixHandWeights s.handRanges flag r.handResults = hr
    have key : ∀ (N : Nat) (l : List Nat) (x : (Nat → UnitResults) × List UnitResults),
        KeepUnit (x.1 k) ((l.foldl (fun (x : (Nat → UnitResults) × List UnitResults) i => finalPlayerF i N 0 x.1 x.2) x).1 k) := by
      intro N l
      induction l with
      | nil => exact fun x => .refl _
      | cons i l ih => exact fun x => (finalPlayerF_keep i N 0 x.1 x.2 k).trans (ih _)
    exact key NUM_HANDS _ (hr, _)
  unfold finishResultsF
  simp only
  split
  · exact ⟨rfl, rfl, rfl, rfl, rfl, hc⟩
  · exact ⟨rfl, rfl, rfl, rfl, rfl, hc⟩

variable {ranges : List (List Combo)} {b d nT : Nat} {cancelled stopped : Bool}

/-- There are not so many combinations that the position counter overflows. -/
def Room (ranges : List (List Combo)) (b d : Nat) : Prop :=
  ∀ s, prepareExact ranges b d = .ok s → (s.combinedRanges.map (·.size)).prod + 2000000 < 2 ^ 64

/-- The number of combinations is at most the product of the numbers of hands. -/
theorem room_of_prod (h : (ranges.map List.length).prod + 2000000 < 2 ^ 64) : Room ranges b d := by
  intro s hok
  have ha := prepareExact_ok hok
  have e : s.combinedRanges = fromRanges (ranges.map fun h => removeConflictingCombos h b d) := by rw [ha.sim]; rfl
  rw [e]
  have h1 := fromRanges_prod (ranges.map fun h => removeConflictingCombos h b d)
  have h2 : ((ranges.map fun h => removeConflictingCombos h b d).map List.length).prod ≤ (ranges.map List.length).prod := by
    clear h h1 e ha hok
    induction ranges with
    | nil => simp
    | cons r ranges ih =>
      simp only [List.map_cons, List.prod_cons]
      exact Nat.mul_le_mul (List.length_filter_le _ _) ih
  omega

/-! ## Without overflow -/

/-- C75: if all showdowns together weigh less than `2^64` the release build has exactly the results of the floating-point model: all the
theorems about that model (C61, C63, C67) hold for the release build. -/
theorem C75_no_overflow (hwf : ∀ r ∈ ranges, WfRange r) (hb : CardMask b) (hd : CardMask d) (hS : Small ranges b d) (hR : Room ranges b d)
    (res : Except SimulatorError Results) (sent : List Nat) :
    ExactEquityR ranges b d nT cancelled stopped res sent ↔ ExactEquityF ranges b d nT cancelled stopped res sent := by
  unfold ExactEquityR ExactEquityF
  cases hok : prepareExact ranges b d with
  | error e => exact Iff.rfl
  | ok s =>
    obtain ⟨ds', total', size', hready, hroom⟩ := ready_exists hwf hb hd hok (hR s hok)
    have ht := preflopComboCountR_eq hready.count
    simp only
    constructor
    · rintro ⟨r0, flag, ds, size, w, h1, h2, h4, h5, h6, h7⟩
      have e1 : ds = ds' := Option.some.inj (h2.symm.trans hready.dividers)
      have e2 : size = size' := Option.some.inj (h4.symm.trans hready.batch)
      subst e1 e2
      rw [ht] at h5
      exact ⟨r0, flag, ds, total', size, w, h1, h2, hready.count, h4, (hready.stepsR_iff hS hroom h1).1 h5, h6, h7⟩
    · rintro ⟨r0, flag, ds, total, size, w, h1, h2, h3, h4, h5, h6, h7⟩
      have e1 : ds = ds' := Option.some.inj (h2.symm.trans hready.dividers)
      have e2 : size = size' := Option.some.inj (h4.symm.trans hready.batch)
      have e3 : total = total' := Option.some.inj (h3.symm.trans hready.count)
      subst e1 e2 e3
      refine ⟨r0, flag, ds, size, w, h1, h2, h4, ?_, h6, h7⟩
      rw [ht]
      exact (hready.stepsR_iff hS hroom h1).2 h5

/-- C75: two players: whatever the ranges, the board and the dead cards. -/
theorem C75_two_players (hwf : ∀ r ∈ ranges, WfRange r) (hb : CardMask b) (hd : CardMask d) (h2 : ranges.length = 2)
    (h100 : ∀ r ∈ ranges, ∀ c ∈ r, c.w ≤ 100) (hr : ∀ r ∈ ranges, r.length ≤ 1326) (res : Except SimulatorError Results) (sent : List Nat) :
    ExactEquityR ranges b d nT cancelled stopped res sent ↔ ExactEquityF ranges b d nT cancelled stopped res sent := by
  refine C75_no_overflow hwf hb hd (C51_two_players h2 h100 hr) (room_of_prod ?_) res sent
  match ranges, h2, hr with
  | [x, y], _, hr =>
    have h1 := hr x (by simp)
    have h2 := hr y (by simp)
    have h3 : x.length * y.length ≤ 1326 * 1326 := Nat.mul_le_mul h1 h2
    simp only [List.map_cons, List.map_nil, List.prod_cons, List.prod_nil, Nat.mul_one]
    omega

/-! ## With overflow -/

/-- The results of the release build belong to the results of the exact model: every counter is the true one modulo `2 ^ 64`; who has no
tie in the exact model has none in the release build. -/
structure OutMod (n : Nat) (r r' : Results) : Prop where
  hands : ∀ k, (r'.handResults k).wins = (r.handResults k).wins % 2 ^ 64 ∧ (r'.handResults k).ties = (r.handResults k).ties % 2 ^ 64 ∧
    (r'.handResults k).total = (r.handResults k).total % 2 ^ 64
  wins : ∀ p, r'.wins p = r.wins p % 2 ^ 64
  masks : ∀ i, r'.winsByMask i = r.winsByMask i % 2 ^ 64
  evals : r'.evalCount = r.evalCount % 2 ^ 64
  noTies : ∀ p, r.ties p = 0 → r'.ties p = 0
  noShares : ∀ k, (r.handResults k).correctedTies = 0 → (r'.handResults k).correctedTies = 0
  equities : r'.equities = (getEquityF n r').equities
  equity : ∀ k, (r'.handResults k).total ≠ 0 → (r'.handResults k).equity = some 0 ∨ (r'.handResults k).equity =
    ffdiv (fl (fl (r'.handResults k).wins + (r'.handResults k).correctedTies)) (fl (r'.handResults k).total)

theorem ResMod.out {s : Sim} (flag : Nat) {r r' : Results} (h : ResMod r r') :
    OutMod s.nPlayers (finishResults s flag r) (finishResultsF s flag r') := by
  obtain ⟨g1, g2, g3, g4, g5⟩ := finishResults_counts s flag r
  obtain ⟨f1, f2, f3, f4, f5, f6⟩ := finishResultsF_keep s flag r'
  have hw : ∀ k, ((finishResults s flag r).handResults k).wins = (r.handResults k).wins := fun k => congrArg (fun c : Cell => c.1) (g5 k)
  have ht : ∀ k, ((finishResults s flag r).handResults k).ties = (r.handResults k).ties := fun k => congrArg (fun c : Cell => c.2.1) (g5 k)
  have hs : ∀ k, ((finishResults s flag r).handResults k).total = (r.handResults k).total := fun k => congrArg (fun c : Cell => c.2.2.1) (g5 k)
  have hc : ∀ k, ((finishResults s flag r).handResults k).correctedTies = (r.handResults k).correctedTies :=
    fun k => congrArg (fun c : Cell => c.2.2.2) (g5 k)
  refine ⟨fun k => ?_, fun p => ?_, fun i => ?_, ?_, fun p hp => ?_, fun k hk => ?_, ?_, fun k hk => ?_⟩
  · rw [hw, ht, hs, (f6 k).wins, (f6 k).ties, (f6 k).total]
    exact ⟨(h.hands k).wins, (h.hands k).ties, (h.hands k).total⟩
  · rw [f1, g1]; exact h.wins p
  · rw [f3, g3]; exact h.masks i
  · rw [f4, g4]; exact h.evals
  · rw [f2]; rw [g2] at hp; exact (h.ties p).2 hp
  · rw [(f6 k).shares]; rw [hc] at hk; exact (h.hands k).shares.2 hk
  · rw [f5]
    unfold getEquityF
    simp only
    rw [f1, f2]
  · rw [(f6 k).total] at hk
    rw [(f6 k).equity hk, (f6 k).wins, (f6 k).shares, (f6 k).total]
    exact h.equity k

/-- C75: every run of the release build belongs to a run of the exact model, whose counters it has modulo `2 ^ 64`. -/
theorem C75_follows (hwf : ∀ r ∈ ranges, WfRange r) (hb : CardMask b) (hd : CardMask d) (hR : Room ranges b d) {r' : Results} {sent' : List Nat}
    (h : ExactEquityR ranges b d nT cancelled stopped (.ok r') sent') :
    ∃ r sent, ExactEquity ranges b d nT cancelled stopped (.ok r) sent ∧ OutMod ranges.length r r' ∧ sent'.length = sent.length := by
  unfold ExactEquityR at h
  split at h
  · cases h.1
  · rename_i s hok
    obtain ⟨r0, flag, ds, size, w', h1, h2, h4, h5, h6, h7, h8, h9⟩ := h
    obtain ⟨ds', total, size', hready, hroom⟩ := ready_exists hwf hb hd hok (hR s hok)
    have e1 : ds = ds' := Option.some.inj (h2.symm.trans hready.dividers)
    have e2 : size = size' := Option.some.inj (h4.symm.trans hready.batch)
    subst e1 e2
    rw [preflopComboCountR_eq hready.count] at h5
    obtain ⟨w, hw, hm⟩ := StepsR.follow hready hroom h1 h5
    have hdone : ∀ t < nT, (w.locals t).pc = .done := fun t ht => by rw [← (hm.locals t).pc]; exact h6 t ht
    refine ⟨finishResults s flag w.shared.results, w.shared.sent, ?_, ?_, ?_⟩
    · unfold ExactEquity
      rw [hok]
      exact ⟨r0, flag, ds, total, size, w, h1, h2, hready.count, h4, hw, hdone, rfl, rfl, by rw [h9]; exact hm.shared.stopped⟩
    · have h7 := Except.ok.inj h7
      rw [h7, ← hready.fields.1]
      exact hm.shared.results.out flag
    · rw [h8]
      obtain ⟨ps, e1, e2, _⟩ := hm.shared.sent
      rw [e1, e2, List.length_map, List.length_map]

/-- C75: and every run of the exact model has such a run of the release build: a release build never fails to return. -/
theorem C75_runs (hwf : ∀ r ∈ ranges, WfRange r) (hb : CardMask b) (hd : CardMask d) (hR : Room ranges b d) {r : Results} {sent : List Nat}
    (h : ExactEquity ranges b d nT cancelled stopped (.ok r) sent) :
    ∃ r' sent', ExactEquityR ranges b d nT cancelled stopped (.ok r') sent' ∧ OutMod ranges.length r r' := by
  unfold ExactEquity at h
  split at h
  · cases h.1
  · rename_i s hok
    obtain ⟨r0, flag, ds, total, size, w, h1, h2, h3, h4, h5, h6, h7, h8, h9⟩ := h
    obtain ⟨ds', total', size', hready, hroom⟩ := ready_exists hwf hb hd hok (hR s hok)
    have e1 : ds = ds' := Option.some.inj (h2.symm.trans hready.dividers)
    have e2 : size = size' := Option.some.inj (h4.symm.trans hready.batch)
    have e3 : total = total' := Option.some.inj (h3.symm.trans hready.count)
    subst e1 e2 e3
    obtain ⟨w', hw, hm⟩ := Steps.followR hready hroom h1 h5
    refine ⟨finishResultsF s flag w'.shared.results, w'.shared.sent, ?_, ?_⟩
    · unfold ExactEquityR
      rw [hok]
      refine ⟨r0, flag, ds, size, w', h1, h2, h4, ?_, fun t ht => ?_, rfl, rfl, ?_⟩
      · rw [preflopComboCountR_eq h3]; exact hw
      · rw [(hm.locals t).pc]; exact h6 t ht
      · rw [h9]; exact hm.shared.stopped.symm
    · have h7 := Except.ok.inj h7
      rw [h7, ← hready.fields.1]
      exact hm.shared.results.out flag

/-- C75: so without cancellation the counters of every hand are the true ones modulo `2 ^ 64`, for any number of players and threads. -/
theorem C75_hands (hwf : ∀ r ∈ ranges, WfRange r) (hb : CardMask b) (hd : CardMask d) (hR : Room ranges b d) (hT : 0 < nT) {r : Results}
    {sent : List Nat} (h : ExactEquityR ranges b d nT cancelled false (.ok r) sent) {p x y : Nat} (hp : p < ranges.length) (hx : x < 52)
    (hy : y < 52) (hxy : x ≠ y) :
    let sd := showdowns (specRanges ranges) (maskCards b) (maskCards d)
    let u := r.handResults (NUM_HANDS * p + getCardIndex x y)
    u.wins = handWins sd p x y % 2 ^ 64 ∧ u.ties = handTies sd p x y % 2 ^ 64 ∧ u.total = handTotal sd p x y % 2 ^ 64 := by
  obtain ⟨r1, sent1, h1, ho, _⟩ := C75_follows hwf hb hd hR h
  obtain ⟨g1, g2, g3, _⟩ := C31_hands hwf hb hd hT h1 hp hx hy hxy
  obtain ⟨f1, f2, f3⟩ := ho.hands (NUM_HANDS * p + getCardIndex x y)
  intro sd u
  exact ⟨by rw [← g1]; exact f1, by rw [← g2]; exact f2, by rw [← g3]; exact f3⟩

/-- C75: the same for the wins of the players and of the groups of players, up to eight players. -/
theorem C75_masks (hwf : ∀ r ∈ ranges, WfRange r) (hb : CardMask b) (hd : CardMask d) (hR : Room ranges b d) (hT : 0 < nT)
    (h8 : ranges.length ≤ 8) {r : Results} {sent : List Nat} (h : ExactEquityR ranges b d nT cancelled false (.ok r) sent) :
    let sd := showdowns (specRanges ranges) (maskCards b) (maskCards d)
    (∀ i < 2 ^ ranges.length, r.winsByMask i = winsOf sd (maskPlayers ranges.length i) % 2 ^ 64) ∧
    ∀ p < ranges.length, r.wins p = winsOf sd [p] % 2 ^ 64 := by
  obtain ⟨r1, sent1, h1, ho, _⟩ := C75_follows hwf hb hd hR h
  obtain ⟨g1, g2⟩ := C31_masks hwf hb hd hT h8 h1
  intro sd
  exact ⟨fun i hi => by rw [ho.masks, g1 i hi], fun p hp => by rw [ho.wins, g2 p hp]⟩

/-- Two hands on the flop: there are runs of the release build, they are those of the floating-point model, and the counters are the true
ones modulo `2 ^ 64`. -/
example : (∃ r sent, ExactEquityR twoHands flopMask 0 3 false false (.ok r) sent) ∧
    ∀ r sent, ExactEquityR twoHands flopMask 0 3 false false (.ok r) sent ↔ ExactEquityF twoHands flopMask 0 3 false false (.ok r) sent := by
  have hwf : ∀ r ∈ twoHands, WfRange r := by unfold WfRange twoHands; decide
  have hb : CardMask flopMask := by unfold CardMask; decide
  refine ⟨?_, fun r sent => C75_two_players hwf hb zero_deck (by decide) (by decide) (by decide) _ _⟩
  obtain ⟨r, sent, h⟩ := two_run 3 false
  obtain ⟨r', sent', h', _⟩ := C75_runs hwf hb zero_deck (room_of_prod (by decide)) h
  exact ⟨r', sent', h'⟩

/-! ## The favourite loses -/

/-- The equities computed from the numbers of wins. -/
def roundedShares (ws : List Nat) : List (Option ℚ) :=
  (ws.map fun w : Nat => fl (w : ℚ)).map fun e => ffdiv e ((ws.map fun w : Nat => fl (w : ℚ)).foldl (fun s e => fl (s + e)) 0)

/-- C75: if no showdown is a tie the reported equities come from the wins modulo `2 ^ 64`. -/
theorem C75_no_ties (hwf : ∀ r ∈ ranges, WfRange r) (hb : CardMask b) (hd : CardMask d) (hR : Room ranges b d) (hT : 0 < nT)
    (h8 : ranges.length ≤ 8) (hsole : ∀ x ∈ showdowns (specRanges ranges) (maskCards b) (maskCards d), ∃ p, winners x.2 x.1 = [p])
    {r : Results} {sent : List Nat} (h : ExactEquityR ranges b d nT cancelled false (.ok r) sent) :
    r.equities = roundedShares ((List.range ranges.length).map fun p =>
      winsOf (showdowns (specRanges ranges) (maskCards b) (maskCards d)) [p] % 2 ^ 64) := by
  obtain ⟨r1, sent1, h1, ho, _⟩ := C75_follows hwf hb hd hR h
  obtain ⟨_, g2⟩ := C31_masks hwf hb hd hT h8 h1
  have hW : WholeShares ranges b d := by
    intro x hx
    obtain ⟨p, hp⟩ := hsole x hx
    rw [hp]
    exact one_dvd _
  obtain ⟨g3, _⟩ := C61_exact hwf hb hd hT h8 hW h1
  have ht : ∀ p < ranges.length, r.ties p = 0 := by
    intro p hp
    apply ho.noTies
    rw [g3 p hp]
    unfold sharesOf
    rw [List.filter_eq_nil_iff.2]
    · rfl
    · intro x hx
      obtain ⟨q, hq⟩ := hsole x hx
      rw [hq]
      simp only [List.mem_singleton, ne_eq, List.cons.injEq, and_true, decide_eq_true_eq, not_and, not_not]
      exact fun h => h.symm
  rw [ho.equities]
  unfold getEquityF roundedShares
  simp only
  have e : ((List.range ranges.length).map fun i => fl (fl (0 + fl (r.wins i)) + r.ties i)) =
      List.map (fun w : Nat => fl (w : ℚ)) ((List.range ranges.length).map fun p =>
        winsOf (showdowns (specRanges ranges) (maskCards b) (maskCards d)) [p] % 2 ^ 64) := by
    rw [List.map_map]
    apply List.map_congr_left
    intro p hp
    have hp := List.mem_range.1 hp
    rw [ht p hp, zero_add, add_zero, fl_fl, fl_fl, ho.wins p, g2 p hp]
    rfl
  rw [e]

/-- C75 (finding): the aces win 1866 of the 3168 showdowns, 58.9 percent, and are the favourite by far, but a release build reports an equity
below 1.7 percent for them, and more than 24 percent for the queens, who win 324 showdowns, 10.2 percent: the wins of the aces weigh
`1866 * 100 ^ 8`, which is more than `2 ^ 64`. -/
theorem C75_favourite_loses (nT : Nat) (hT : 0 < nT) :
    (∃ r sent, ExactEquityR acesHands acesBoard 0 nT false false (.ok r) sent) ∧
    ∀ cancelled r sent, ExactEquityR acesHands acesBoard 0 nT cancelled false (.ok r) sent →
      ∃ e0 e3, r.equities[0]? = some (some e0) ∧ r.equities[3]? = some (some e3) ∧ e0 < 17 / 1000 ∧ 24 / 100 < e3 := by
  have hrun : ∃ r sent, ExactEquity acesHands acesBoard 0 nT false false (.ok r) sent :=
    run_of_deal aces_wf aces_deck zero_deck (by decide +kernel) (by decide +kernel) (by decide) nT false
  obtain ⟨hs, hw⟩ := aces_wins
  have hwf := aces_wf
  have hb := aces_deck
  have hl : acesHands.length = 8 := rfl
  have hR : Room acesHands acesBoard 0 := room_of_prod (by decide)
  generalize acesHands = rs at *
  generalize acesBoard = bd at *
  refine ⟨?_, fun cancelled r sent h => ?_⟩
  · obtain ⟨r, sent, h⟩ := hrun
    obtain ⟨r', sent', h', _⟩ := C75_runs hwf hb zero_deck hR h
    exact ⟨r', sent', h'⟩
  · have he := C75_no_ties hwf hb zero_deck hR hT (by omega) hs h
    have e : ((List.range rs.length).map fun p => winsOf (showdowns (specRanges rs) (maskCards bd) (maskCards 0)) [p] % 2 ^ 64) =
        ((List.range 8).map fun p => winsOf (showdowns (specRanges rs) (maskCards bd) (maskCards 0)) [p]).map (· % 2 ^ 64) := by
      rw [List.map_map, hl]
      rfl
    rw [he, e, hw]
    clear he hw e h
    have key : ∀ i < 8, (roundedShares ([1866 * 10 ^ 16, 0, 0, 324 * 10 ^ 16, 276 * 10 ^ 16, 156 * 10 ^ 16, 294 * 10 ^ 16, 252 * 10 ^ 16].map
        (· % 2 ^ 64)))[i]?.join.isSome = true ∧
        (i = 0 → ((roundedShares ([1866 * 10 ^ 16, 0, 0, 324 * 10 ^ 16, 276 * 10 ^ 16, 156 * 10 ^ 16, 294 * 10 ^ 16, 252 * 10 ^ 16].map
          (· % 2 ^ 64)))[i]?.join.getD 1) < 17 / 1000) ∧
        (i = 3 → 24 / 100 < ((roundedShares ([1866 * 10 ^ 16, 0, 0, 324 * 10 ^ 16, 276 * 10 ^ 16, 156 * 10 ^ 16, 294 * 10 ^ 16, 252 * 10 ^ 16].map
          (· % 2 ^ 64)))[i]?.join.getD 0)) := by decide +kernel
    generalize roundedShares _ = L at key
    have k0 := key 0 (by decide)
    have k3 := key 3 (by decide)
    obtain ⟨e0, h0⟩ := Option.isSome_iff_exists.1 k0.1
    obtain ⟨e3, h3⟩ := Option.isSome_iff_exists.1 k3.1
    have h1 := k0.2.1 rfl
    have h2 := k3.2.2 rfl
    rw [h0] at h1
    rw [h3] at h2
    exact ⟨e0, e3, Option.join_eq_some_iff.1 h0, Option.join_eq_some_iff.1 h3, h1, h2⟩

/-! ## All deals lost -/

/-- C75 (finding): if the number of combinations is a multiple of `2 ^ 64` the release build evaluates nothing at all, however long it could
have calculated, and reports success: no wins, all equities NaN, progress 0. -/
theorem C75_lost_deals {s : Sim} (hok : prepareExact ranges b d = .ok s) (h0 : 2 ^ 64 ∣ (s.combinedRanges.map (·.size)).prod)
    {r : Results} {sent : List Nat} (h : ExactEquityR ranges b d nT cancelled stopped (.ok r) sent) :
    (∀ p, r.wins p = 0) ∧ r.evalCount = 0 ∧ r.equities = List.replicate ranges.length none ∧
    (∀ k, (r.handResults k).total = 0) ∧ ∀ x ∈ sent, x = 0 := by
  have hn : s.nPlayers = ranges.length := by rw [(prepareExact_ok hok).sim]; simp [Sim.new]
  unfold ExactEquityR at h
  rw [hok] at h
  obtain ⟨r0, flag, ds, size, w, h1, h2, h4, h5, h6, h7, h8, h9⟩ := h
  rw [preflopComboCountR_mod, Nat.mod_eq_zero_of_dvd h0] at h5
  have hz := (initial_zero (cancelled := cancelled) h1).steps h5
  obtain ⟨f1, f2, f3, f4, f5, f6⟩ := finishResultsF_keep s flag w.shared.results
  have h7 := Except.ok.inj h7
  refine ⟨fun p => by rw [h7, f1, hz.results.wins], by rw [h7, f4, hz.results.evals], ?_, fun k => by rw [h7, (f6 k).total, (hz.results.hands k).2.2], ?_⟩
  · rw [h7, f5, hn]
    unfold getEquityF
    simp only
    have e : ((List.range ranges.length).map fun i => fl (fl (0 + fl (w.shared.results.wins i)) + w.shared.results.ties i)) =
        List.replicate ranges.length 0 := by
      rw [List.eq_replicate_iff]
      refine ⟨by simp, fun x hx => ?_⟩
      obtain ⟨i, _, rfl⟩ := List.mem_map.1 hx
      rw [hz.results.wins, hz.results.ties, Nat.cast_zero, fl_zero, add_zero, add_zero, fl_zero, fl_zero]
    rw [e]
    have e2 : ∀ n, (List.replicate n (0 : ℚ)).foldl (fun s e => fl (s + e)) 0 = 0 := by
      intro n
      induction n with
      | zero => rfl
      | succ n ih => rw [List.replicate_succ, List.foldl_cons, add_zero, fl_zero, ih]
    rw [e2, List.map_replicate]
    rfl
  · rw [h8]
    exact hz.sent

/-- The 256 hands of `A2o+,K4o+,AKs`. -/
def wideRange : List Combo :=
  (List.range 8).flatMap fun i => (List.range 52).filterMap fun b =>
    let a := 44 + i
    if a % 4 ≠ b % 4 ∧ (4 ≤ i ∧ b < 48 ∨ i < 4 ∧ 8 ≤ b ∧ b < 44) ∨ 4 ≤ i ∧ a = b + 4 then some ⟨a, b, 100⟩ else none

theorem wide_wf : WfRange wideRange := by unfold WfRange wideRange; decide +kernel
theorem wide_length : wideRange.length = 256 := by decide +kernel

theorem estimate_masks (a b : CombinedRange) : estimateJoinSize a b = (a.combos.map (·.mask)).foldl (fun size m1 => (b.combos.map (·.mask)).foldl
    (fun size m2 => if m1 &&& m2 = 0 then size + 1 else size) size) 0 := by
  unfold estimateJoinSize
  rw [List.foldl_map]
  simp only [List.foldl_map]

theorem fromRange_masks (r : List Combo) (i : Nat) : (fromRange r i).combos.map (·.mask) = (fromRange r 0).combos.map (·.mask) := by
  rfl

theorem wide_estimate : MAX_SIZE ≤ estimateJoinSize (fromRange wideRange 0) (fromRange wideRange 0) := by decide +kernel

theorem bestPair_large {crs : List CombinedRange} (h : ∀ i < crs.length, ∀ j < crs.length,
    MAX_SIZE ≤ estimateJoinSize (crs.getD i default) (crs.getD j default)) : MAX_SIZE ≤ (bestPair crs).1 := by
  unfold bestPair
  have key : ∀ (l : List Nat), (∀ i ∈ l, i < crs.length) → ∀ st : Nat × Nat × Nat, MAX_SIZE ≤ st.1 → MAX_SIZE ≤ (l.foldl (fun st i => (List.range i).foldl (fun st j =>
      let s := estimateJoinSize (crs.getD i default) (crs.getD j default)
      if s < st.1 then (s, i, j) else st) st) st).1 := by
    intro l
    induction l with
    | nil => exact fun _ st h => h
    | cons i l ih =>
      intro hl st hst
      rw [List.foldl_cons]
      apply ih fun x hx => hl x (by simp [hx])
      have hi := hl i (by simp)
      have key' : ∀ (m : List Nat), (∀ j ∈ m, j < crs.length) → ∀ st : Nat × Nat × Nat, MAX_SIZE ≤ st.1 → MAX_SIZE ≤ (m.foldl (fun st j =>
          let s := estimateJoinSize (crs.getD i default) (crs.getD j default)
          if s < st.1 then (s, i, j) else st) st).1 := by
        intro m
        induction m with
        | nil => exact fun _ st h => h
        | cons j m ihm =>
          intro hm st hst
          rw [List.foldl_cons]
          apply ihm fun x hx => hm x (by simp [hx])
          simp only
          split
          · exact h i hi j (hm j (by simp))
          · exact hst
      exact key' _ (fun j hj => by have := List.mem_range.1 hj; omega) st hst
  exact key _ (fun i hi => List.mem_range.1 hi) _ (by decide)

theorem fromRanges_large {rs : List (List Combo)} (h : MAX_SIZE ≤ (bestPair (rs.mapIdx fun i r => fromRange r i)).1) :
    fromRanges rs = rs.mapIdx fun i r => fromRange r i := by
  unfold fromRanges
  cases rs with
  | nil => rfl
  | cons r rs =>
    rw [List.length_cons, combineLoop]
    rw [if_neg (by omega)]

/-- Eight ranges of 256 hands that are not joined. -/
theorem eight_of_256 {rs : List (List Combo)} (hl : rs.length = 8) (hw : ∀ r ∈ rs, WfRange r) (h256 : ∀ r ∈ rs, r.length = 256)
    (hbig : MAX_SIZE ≤ (bestPair (rs.mapIdx fun i r => fromRange r i)).1) (nT : Nat) :
    (∃ r sent, ExactEquityR rs 0 0 nT false false (.ok r) sent) ∧
    ∀ cancelled stopped r sent, ExactEquityR rs 0 0 nT cancelled stopped (.ok r) sent →
      (∀ p, r.wins p = 0) ∧ r.evalCount = 0 ∧ r.equities = List.replicate 8 none := by
  have hfr := fromRanges_large hbig
  have hcr : ∀ hs crs, (Sim.new hs crs 0 0 true).combinedRanges = crs := fun _ _ => rfl
  have hsize : ∀ c ∈ fromRanges rs, c.size = 256 := by
    intro c hc
    rw [hfr] at hc
    obtain ⟨i, hi, rfl⟩ := List.mem_mapIdx.1 hc
    unfold fromRange
    simp only [List.length_map]
    exact h256 _ (List.getElem_mem hi)
  have hlen : (fromRanges rs).length = 8 := by rw [hfr, List.length_mapIdx, hl]
  have hf : rs.map (fun h => removeConflictingCombos h 0 0) = rs := by
    rw [List.map_congr_left (g := id), List.map_id]
    intro r _
    exact List.filter_eq_self.2 (fun a _ => by simp)
  have hok : prepareExact rs 0 0 = .ok (Sim.new rs (fromRanges rs) 0 0 true) := by
    have hv : validate rs.length 0 0 = none := by rw [hl]; decide +kernel
    unfold prepareExact
    rw [hv]
    show (if _ then _ else _) = _
    rw [hf, if_neg]
    simp only [List.any_eq_true, not_exists, not_and]
    intro c hc h0
    have := hsize c hc
    simp only [beq_iff_eq] at h0
    omega
  generalize hs : Sim.new rs (fromRanges rs) 0 0 true = s at hok
  have hcs : s.combinedRanges = fromRanges rs := by rw [← hs]; exact hcr _ _
  rw [← hcs] at hsize hlen
  have hprod : (s.combinedRanges.map (·.size)).prod = 2 ^ 64 := by
    have : s.combinedRanges.map (·.size) = List.replicate 8 256 := by
      rw [List.eq_replicate_iff]
      refine ⟨by rw [List.length_map, hlen], fun x hx => ?_⟩
      obtain ⟨c, hc, rfl⟩ := List.mem_map.1 hx
      exact hsize c hc
    rw [this]
    decide
  constructor
  · have ha := prepareExact_ok hok
    obtain ⟨r0, flag, h0⟩ := start_some_of (d := 0) hw (s := s) (b := 0) (by rw [ha.sim]; rfl) (by decide) (by rw [ha.sim]; rfl)
    obtain ⟨ds, hds⟩ := dividers_exist s.combinedRanges fun c hc => by rw [hsize c hc]; decide
    have hres := (C26_postflop hok).2.2
    obtain ⟨v, hv, hdone, hst⟩ := zero_finish s ds _ nT (World.init s r0 false) (fun _ => rfl)
    refine ⟨finishResultsF s flag v.shared.results, v.shared.sent, ?_⟩
    unfold ExactEquityR
    rw [hok]
    refine ⟨r0, flag, ds, _, v, h0, hds, hres, ?_, hdone, rfl, rfl, hst.symm⟩
    rw [preflopComboCountR_mod, hprod]
    exact hv
  · intro cancelled stopped r sent h
    obtain ⟨g1, g2, g3, _⟩ := C75_lost_deals hok (by rw [hprod]) h
    rw [hl] at g3
    exact ⟨g1, g2, g3⟩

theorem replicate_large {R : List Combo} (n : Nat) (h : MAX_SIZE ≤ estimateJoinSize (fromRange R 0) (fromRange R 0)) :
    MAX_SIZE ≤ (bestPair ((List.replicate n R).mapIdx fun i r => fromRange r i)).1 := by
  have hl : ((List.replicate n R).mapIdx fun i r => fromRange r i).length = n := by simp
  apply bestPair_large
  rw [hl]
  intro i hi j hj
  have hg : ∀ k < n, ((List.replicate n R).mapIdx fun i r => fromRange r i).getD k default = fromRange R k := by
    intro k hk
    rw [List.getD_eq_getElem _ _ (by rw [hl]; exact hk), List.getElem_mapIdx, List.getElem_replicate]
  rw [hg i hi, hg j hj, estimate_masks, fromRange_masks R i, fromRange_masks R j, ← estimate_masks]
  exact h

/-- C75 (finding): for eight players with the range `A2o+,K4o+,AKs` every run of the release build returns without having evaluated a single
showdown, and there are such runs. -/
theorem C75_eight_wide (nT : Nat) :
    (∃ r sent, ExactEquityR (List.replicate 8 wideRange) 0 0 nT false false (.ok r) sent) ∧
    ∀ cancelled stopped r sent, ExactEquityR (List.replicate 8 wideRange) 0 0 nT cancelled stopped (.ok r) sent →
      (∀ p, r.wins p = 0) ∧ r.evalCount = 0 ∧ r.equities = List.replicate 8 none := by
  have h1 := wide_wf
  have h2 := wide_length
  have h3 := wide_estimate
  generalize wideRange = R at *
  exact eight_of_256 (by simp) (fun r hr => by rw [List.eq_of_mem_replicate hr]; exact h1)
    (fun r hr => by rw [List.eq_of_mem_replicate hr]; exact h2) (replicate_large 8 h3) nT

end Pokers
