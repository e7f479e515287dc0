import Verif.Proofs.Totals
import Verif.Proofs.Cancel
import Verif.Props.Exact
import Mathlib.Algebra.BigOperators.Field
/-!
# Equities, tie shares, conservation, cancellation and progress (C33, C34, C35, C44, C45)
-/
namespace Pokers
open Spec CombinedRange
open Finset (range)

variable {ranges : List (List Combo)} {b d nT : Nat} {cancelled stopped : Bool} {r : Results} {sent : List Nat} {sqrt : ℚ → ℚ}
  {ex : Bool} {s : Sim} {flag : Nat} {r0 : Results} {hist : List (Batch × HandStats)} {sd : Shows}

/-! ## C33 -/

theorem foldl_add_eq_sum (l : List ℚ) (a : ℚ) : l.foldl (· + ·) a = a + l.sum := by
  induction l generalizing a with
  | nil => simp
  | cons x l ih => rw [List.foldl_cons, ih, List.sum_cons, add_assoc]

theorem list_sum_range (n : Nat) (f : Nat → ℚ) : ((List.range n).map f).sum = ∑ i ∈ range n, f i := by
  induction n with
  | zero => simp
  | succ n ih => rw [List.range_succ, List.map_append, List.sum_append, ih, Finset.sum_range_succ]; simp

theorem getEquity_eq (n : Nat) (r : Results) : (getEquity n r).equities =
    (List.range n).map fun p => fdiv ((r.wins p : ℚ) + r.ties p) (∑ q ∈ range n, ((r.wins q : ℚ) + r.ties q)) := by
  unfold getEquity
  simp only [foldl_add_eq_sum, zero_add, list_sum_range, List.map_map]
  rfl

/-- C33_equities for both calculations. -/
theorem Calc.equity_parts (h : Calc sqrt ex ranges b d r s flag r0 hist sd) :
    let S := ∑ q ∈ range ranges.length, ((r.wins q : ℚ) + r.ties q)
    (0 < S → ∃ es : List ℚ, r.equities = es.map some ∧ es.length = ranges.length ∧ es.sum = 1 ∧ (∀ e ∈ es, 0 ≤ e ∧ e ≤ 1) ∧
      ∀ p < ranges.length, es[p]? = some (((r.wins p : ℚ) + r.ties p) / S)) ∧
    (¬ 0 < S → r.equities = List.replicate ranges.length none ∧ ∀ p < ranges.length, r.wins p = 0 ∧ r.ties p = 0) := by
  have hn := h.players
  have he := h.equities
  have ht : ∀ p < ranges.length, 0 ≤ r.ties p := fun p hp => h.ties_nonneg (by rw [hn]; exact hp)
  rw [hn, getEquity_eq] at he
  intro S
  have hw : ∀ p < ranges.length, (0 : ℚ) ≤ (r.wins p : ℚ) + r.ties p := fun p hp =>
    add_nonneg (Nat.cast_nonneg _) (ht p hp)
  constructor
  · intro hS
    refine ⟨(List.range ranges.length).map fun p => ((r.wins p : ℚ) + r.ties p) / S, ?_, by simp, ?_, ?_, ?_⟩
    · rw [he, List.map_map]
      apply List.map_congr_left
      intro p _
      unfold fdiv
      rw [if_neg hS.ne']
      rfl
    · rw [list_sum_range, ← Finset.sum_div]
      exact div_self hS.ne'
    · intro e hmem
      obtain ⟨p, hp, rfl⟩ := List.mem_map.1 hmem
      rw [List.mem_range] at hp
      refine ⟨div_nonneg (hw p hp) hS.le, (div_le_one hS).2 ?_⟩
      exact Finset.single_le_sum (f := fun q => (r.wins q : ℚ) + r.ties q) (fun q hq => hw q (Finset.mem_range.1 hq))
        (Finset.mem_range.2 hp)
    · intro p hp
      simp [hp]
  · intro hS
    have h0 : S = 0 := le_antisymm (not_lt.1 hS) (Finset.sum_nonneg fun q hq => hw q (Finset.mem_range.1 hq))
    constructor
    · rw [he]
      apply List.ext_getElem (by simp)
      intro i h1 h2
      simp only [List.getElem_map, List.getElem_replicate]
      unfold fdiv
      exact if_pos h0
    · intro p hp
      have := (Finset.sum_eq_zero_iff_of_nonneg fun q hq => hw q (Finset.mem_range.1 hq)).1 h0 p (Finset.mem_range.2 hp)
      have h1 := ht p hp
      have h2 : (0 : ℚ) ≤ (r.wins p : ℚ) := Nat.cast_nonneg _
      refine ⟨?_, by linarith⟩
      have : (r.wins p : ℚ) = 0 := by linarith
      exact_mod_cast this

/-- C33: the reported equities are each player's part of all wins and ties: numbers between 0 and 1 whose sum is 1.  If there
are no wins and ties at all, every equity is `NaN`. -/
theorem C33_equities (hwf : ∀ r ∈ ranges, WfRange r) (hb : CardMask b) (hd : CardMask d)
    (h : ExactEquity ranges b d nT cancelled stopped (.ok r) sent) :
    let S := ∑ q ∈ range ranges.length, ((r.wins q : ℚ) + r.ties q)
    (0 < S → ∃ es : List ℚ, r.equities = es.map some ∧ es.length = ranges.length ∧ es.sum = 1 ∧ (∀ e ∈ es, 0 ≤ e ∧ e ≤ 1) ∧
      ∀ p < ranges.length, es[p]? = some (((r.wins p : ℚ) + r.ties p) / S)) ∧
    (¬ 0 < S → r.equities = List.replicate ranges.length none ∧ ∀ p < ranges.length, r.wins p = 0 ∧ r.ties p = 0) := by
  obtain ⟨_, _, _, _, _, _, hlen, hc⟩ := exact_calc hwf hb hd h
  exact hc.equity_parts

/-! ## C34 -/

/-- C34_integer_division for both calculations. -/
theorem Calc.integer_division (h : Calc sqrt ex ranges b d r s flag r0 hist sd) : ∃ batches : List (Nat → Nat),
      batches.length = hist.length ∧
      (∀ i < 2 ^ ranges.length, r.winsByMask i = (batches.map fun f => f i).sum) ∧
      ∀ p < ranges.length, r.ties p = (((batches.map fun f => ∑ i ∈ range (2 ^ ranges.length),
        if i.testBit p = true ∧ countOnes i ≠ 1 then f i / countOnes i else 0).sum : Nat) : ℚ) := by
  have hn := h.players
  refine ⟨hist.map fun x => x.1.winsByMask, by simp, fun i hi => ?_, fun p hp => ?_⟩
  · rw [h.masks (by rw [hn]; exact hi), List.map_map]; rfl
  · rw [h.ties (by rw [hn]; exact hp), hn, List.map_map]
    clear h
    induction hist with
    | nil => simp
    | cons x L ih =>
      rw [List.map_cons, List.sum_cons, List.map_cons, List.sum_cons, ih]
      rw [Nat.cast_add]
      refine congrArg₂ (· + ·) ?_ rfl
      show _ = ((∑ i ∈ range (2 ^ ranges.length), if i.testBit p = true ∧ countOnes i ≠ 1 then x.1.winsByMask i / countOnes i else 0 :
        Nat) : ℚ)
      rw [Nat.cast_sum]
      refine Finset.sum_congr rfl fun i _ => ?_
      unfold maskTies tieShare
      split <;> simp_all

/-- C34: how the ties of a player come about.  Each update of the results divides the count of every shared mask of the
player by the number of winners, dropping the remainder. -/
theorem C34_integer_division (hwf : ∀ r ∈ ranges, WfRange r) (hb : CardMask b) (hd : CardMask d)
    (h : ExactEquity ranges b d nT cancelled stopped (.ok r) sent) : ∃ batches : List (Nat → Nat),
      batches.length = sent.length ∧
      (∀ i < 2 ^ ranges.length, r.winsByMask i = (batches.map fun f => f i).sum) ∧
      ∀ p < ranges.length, r.ties p = (((batches.map fun f => ∑ i ∈ range (2 ^ ranges.length),
        if i.testBit p = true ∧ countOnes i ≠ 1 then f i / countOnes i else 0).sum : Nat) : ℚ) := by
  obtain ⟨_, _, _, _, _, _, hlen, hc⟩ := exact_calc hwf hb hd h
  rw [hlen]
  exact hc.integer_division

/-- C34: with up to eight players and without cancellation the ties of a player are at most the exact share and fall short of
it by less than one unit per update and shared mask. -/
theorem C34_tie_shares (hwf : ∀ r ∈ ranges, WfRange r) (hb : CardMask b) (hd : CardMask d) (hT : 0 < nT) (h8 : ranges.length ≤ 8)
    (h : ExactEquity ranges b d nT cancelled false (.ok r) sent) {p : Nat} (hp : p < ranges.length) :
    let sd := showdowns (specRanges ranges) (maskCards b) (maskCards d)
    r.ties p ≤ sharesOf sd p ∧ sharesOf sd p - r.ties p ≤ (sent.length : ℚ) *
      ∑ i ∈ range (2 ^ ranges.length), if i.testBit p = true ∧ countOnes i ≠ 1 then 1 - 1 / (countOnes i : ℚ) else 0 := by
  intro sd
  obtain ⟨s, ds, total, size, flag, r0, hist, D, hrun, hlen⟩ := exact_run hwf hb hd h
  have hn := hrun.ready.fields.1
  obtain ⟨_, _, _, hall⟩ := hrun.counts
  obtain ⟨_, _, hcalc⟩ := hrun.calc
  have hc := (hall hT rfl).2
  have hsh := hc.share (showdowns_length hwf) h8 hp
  have hbd := share_bounds hist ranges.length (p := p) (by omega) r.winsByMask (fun i hi => hcalc.masks (by rw [hn]; exact hi))
  have ht := hcalc.ties (p := p) (by rw [hn]; exact hp)
  rw [hn] at ht
  unfold exactShare at hsh
  simp only at hbd
  rw [← ht, hsh, ← hlen] at hbd
  exact hbd

/-- Two pairs of weight 1 on a royal flush. -/
def chopHands : List (List Combo) := [[⟨0, 1, 1⟩], [⟨4, 5, 1⟩]]

/-- The royal flush of the first suit: the cards 32, 36, 40, 44, 48. -/
def royalMask : Nat := 1 <<< 32 ||| 1 <<< 36 ||| 1 <<< 40 ||| 1 <<< 44 ||| 1 <<< 48

theorem chop_wf : ∀ r ∈ chopHands, WfRange r := by unfold WfRange chopHands; decide
theorem royal_deck : CardMask royalMask := by unfold CardMask; decide
theorem zero_deck : CardMask 0 := by unfold CardMask; decide

theorem chop_run (nT : Nat) (cancelled : Bool) : ∃ r sent, ExactEquity chopHands royalMask 0 nT cancelled cancelled (.ok r) sent :=
  run_exists' chop_wf royal_deck zero_deck (by decide +kernel) (by decide +kernel) (by decide +kernel) nT cancelled

theorem chop_shares : ∀ p < 2, sharesOf (showdowns (specRanges chopHands) (maskCards royalMask) (maskCards 0)) p = 1 / 2 ∧
    winsOf (showdowns (specRanges chopHands) (maskCards royalMask) (maskCards 0)) [p] = 0 := by decide +kernel

/-- C34 (finding): two players with hands of weight 1 share the only pot, each with the exact share one half, but every run
reports no ties and no wins, and all equities are `NaN`. -/
theorem C34_nan_equities (nT : Nat) (hT : 0 < nT) :
    (∃ r sent, ExactEquity chopHands royalMask 0 nT false false (.ok r) sent) ∧
    (∀ p < 2, sharesOf (showdowns (specRanges chopHands) (maskCards royalMask) (maskCards 0)) p = 1 / 2) ∧
    ∀ cancelled r sent, ExactEquity chopHands royalMask 0 nT cancelled false (.ok r) sent →
      r.equities = [none, none] ∧ ∀ p < 2, r.wins p = 0 ∧ r.ties p = 0 := by
  refine ⟨chop_run nT false, fun p hp => (chop_shares p hp).1, ?_⟩
  intro cancelled r sent h
  have hlen : chopHands.length = 2 := rfl
  have hzero : ∀ p < 2, r.wins p = 0 ∧ r.ties p = 0 := by
    intro p hp
    obtain ⟨hs, hw⟩ := chop_shares p hp
    constructor
    · rw [(C31_masks chop_wf royal_deck zero_deck hT (by decide) h).2 p hp]; exact hw
    · obtain ⟨batches, _, _, h3⟩ := C34_integer_division chop_wf royal_deck zero_deck h
      have h1 := (C34_tie_shares chop_wf royal_deck zero_deck hT (by decide) h (p := p) hp).1
      simp only [hs] at h1
      rw [h3 p hp] at h1 ⊢
      generalize ((batches.map fun f => ∑ i ∈ range (2 ^ chopHands.length),
        if i.testBit p = true ∧ countOnes i ≠ 1 then f i / countOnes i else 0).sum : Nat) = k at h1 ⊢
      have : k = 0 := by
        by_contra hk
        have : (1 : ℚ) ≤ (k : ℚ) := by exact_mod_cast Nat.one_le_iff_ne_zero.2 hk
        linarith
      rw [this]; rfl
  refine ⟨?_, hzero⟩
  have h33 := (C33_equities chop_wf royal_deck zero_deck h).2
  rw [hlen] at h33
  have hS : ∑ q ∈ range 2, ((r.wins q : ℚ) + r.ties q) = 0 := by
    apply Finset.sum_eq_zero
    intro q hq
    obtain ⟨h1, h2⟩ := hzero q (Finset.mem_range.1 hq)
    rw [h1, h2]; simp
  exact (h33 (by rw [hS]; exact lt_irrefl 0)).1

/-! ## C35 -/

/-- C35_conservation for both calculations. -/
theorem Calc.conservation (h : Calc sqrt ex ranges b d r s flag r0 hist sd) :
    let T := ∑ i ∈ range (2 ^ ranges.length), r.winsByMask i
    (∀ p < ranges.length, ∑ k ∈ range NUM_HANDS, (r.handResults (NUM_HANDS * p + k)).total = T) ∧
    ∑ p ∈ range ranges.length, ∑ k ∈ range NUM_HANDS, (((r.handResults (NUM_HANDS * p + k)).wins : ℚ) +
      (r.handResults (NUM_HANDS * p + k)).correctedTies) = (T : ℚ) ∧
    (ranges.length ≤ 8 → ∀ p < ranges.length, ∑ k ∈ range NUM_HANDS, (r.handResults (NUM_HANDS * p + k)).wins = r.wins p) := by
  intro T
  have hc := h.counts
  have hw := h.deals
  have h9 := h.few
  have h2 := h.many
  have hT : T = totalWeight sd := hc.maskSum (fun x hx => (hw x hx).2) h9
  have hh := fun p hp => hc.hands (fun x hx => (hw x hx).1) (fun x hx => (hw x hx).2) (p := p) hp
  refine ⟨fun p hp => by rw [hT]; exact (hh p hp).1, ?_, fun h8 p hp => ?_⟩
  · rw [hT, ← shares_sum (fun x hx => (hw x hx).2) (by omega)]
    refine Finset.sum_congr rfl fun p hp => ?_
    obtain ⟨_, e1, _, e2⟩ := hh p (Finset.mem_range.1 hp)
    rw [Finset.sum_add_distrib, e2, ← e1, Nat.cast_sum]
  · rw [(hh p hp).2.1, hc.playerWins (fun x hx => (hw x hx).2) h8 p hp]

/-- C35: conservation, for every run, cancelled or not, with any number of players.  The totals of the hands of each player, and
the counts of all masks, sum to the same number; so do all hand wins and tie shares of all players together.  With up to eight
players the hand wins of a player sum to the player's wins. -/
theorem C35_conservation (hwf : ∀ r ∈ ranges, WfRange r) (hb : CardMask b) (hd : CardMask d)
    (h : ExactEquity ranges b d nT cancelled stopped (.ok r) sent) :
    let T := ∑ i ∈ range (2 ^ ranges.length), r.winsByMask i
    (∀ p < ranges.length, ∑ k ∈ range NUM_HANDS, (r.handResults (NUM_HANDS * p + k)).total = T) ∧
    ∑ p ∈ range ranges.length, ∑ k ∈ range NUM_HANDS, (((r.handResults (NUM_HANDS * p + k)).wins : ℚ) +
      (r.handResults (NUM_HANDS * p + k)).correctedTies) = (T : ℚ) ∧
    (ranges.length ≤ 8 → ∀ p < ranges.length, ∑ k ∈ range NUM_HANDS, (r.handResults (NUM_HANDS * p + k)).wins = r.wins p) := by
  obtain ⟨_, _, _, _, _, _, hlen, hc⟩ := exact_calc hwf hb hd h
  exact hc.conservation

/-- C35 without cancellation: that number is the total weight of all showdowns, and the sums of the hand results of a player are
the totals of the player. -/
theorem C35_totals (hwf : ∀ r ∈ ranges, WfRange r) (hb : CardMask b) (hd : CardMask d) (hT : 0 < nT)
    (h : ExactEquity ranges b d nT cancelled false (.ok r) sent) :
    let sd := showdowns (specRanges ranges) (maskCards b) (maskCards d)
    ∑ i ∈ range (2 ^ ranges.length), r.winsByMask i = totalWeight sd ∧
    ∀ p < ranges.length,
      ∑ k ∈ range NUM_HANDS, (r.handResults (NUM_HANDS * p + k)).total = totalWeight sd ∧
      ∑ k ∈ range NUM_HANDS, (r.handResults (NUM_HANDS * p + k)).wins = winsOf sd [p] ∧
      ∑ k ∈ range NUM_HANDS, (r.handResults (NUM_HANDS * p + k)).ties = tiesOf sd p ∧
      ∑ k ∈ range NUM_HANDS, (r.handResults (NUM_HANDS * p + k)).correctedTies = sharesOf sd p := by
  intro sd
  obtain ⟨s, ds, total, size, flag, r0, hist, D, hrun, hlen⟩ := exact_run hwf hb hd h
  obtain ⟨_, _, _, hall⟩ := hrun.counts
  have hc := (hall hT rfl).2
  exact ⟨hc.maskSum (showdowns_length hwf) hrun.ready.fields.2.2.2.2.2.2.1, fun p hp =>
    hc.hands (fun x hx => (showdowns_wf hwf hx).1) (showdowns_length hwf) hp⟩

/-- The total weight of aces against kings on a flop is that of 990 boards. -/
example : totalWeight (showdowns (specRanges twoHands) (maskCards flopMask) (maskCards 0)) = 990 * 5000 := by decide +kernel

/-! ## C44 -/

/-- C44: whenever the token is set, the results are those of a collection of legal deals, each processed completely and exactly
once. -/
theorem C44_counts (hwf : ∀ r ∈ ranges, WfRange r) (hb : CardMask b) (hd : CardMask d)
    (h : ExactEquity ranges b d nT cancelled stopped (.ok r) sent) :
    ∃ dls : List (List WHand), dls.Subperm (deals (specRanges ranges) (maskCards b ++ maskCards d)) ∧
      let sd := dls.flatMap fun dd => (boards (maskCards b) (maskCards d) dd).map fun B => (dd, B)
      (∀ p < ranges.length, ∀ x < 52, ∀ y < 52, x ≠ y →
        let u := r.handResults (NUM_HANDS * p + getCardIndex x y)
        u.wins = handWins sd p x y ∧ u.ties = handTies sd p x y ∧ u.total = handTotal sd p x y ∧
        u.correctedTies = handShares sd p x y) ∧
      (ranges.length ≤ 8 → (∀ i < 2 ^ ranges.length, r.winsByMask i = winsOf sd (maskPlayers ranges.length i)) ∧
        ∀ p < ranges.length, r.wins p = winsOf sd [p]) := by
  obtain ⟨s, ds, total, size, flag, r0, hist, D, hrun, hlen⟩ := exact_run hwf hb hd h
  obtain ⟨dls, hsub, hc, _⟩ := hrun.counts
  have hw := dealShows_wf hwf hsub
  refine ⟨dls, hsub, fun p hp x hx y hy hxy => ?_, fun h8 => ?_⟩
  · have hcell := hc.hand p hp x hx y hy hxy
    exact ⟨congrArg (fun c : Cell => c.1) hcell, congrArg (fun c : Cell => c.2.1) hcell,
      congrArg (fun c : Cell => c.2.2.1) hcell, congrArg (fun c : Cell => c.2.2.2) hcell⟩
  · exact ⟨hc.masks (fun x hx => (hw x hx).2) h8, hc.playerWins (fun x hx => (hw x hx).2) h8⟩

/-- C44: once the token is set, a thread merges its counters at most twice more (at its next flush and when it ends), and all
threads together at most `2 * n_threads` times. -/
theorem C44_prompt {s : Sim} {ds : List DividerU64} {total size nT : Nat} {w v : World}
    (h : Steps s ds total size nT w v) (hst : w.shared.stopped = true) :
    v.shared.stopped = true ∧ v.shared.sent.length ≤ w.shared.sent.length + 2 * nT ∧
    ∀ t, (w.locals t).pc = .check → ((v.locals t).pc = .check ∨ (v.locals t).pc = .final ∨ (v.locals t).pc = .done) ∧
      (v.locals t).pos = (w.locals t).pos := by
  refine ⟨h.stays_stopped hst, ?_, fun t ht => ?_⟩
  · have h1 := h.updates hst
    have h2 : ∑ t ∈ range nT, updatesLeft (w.locals t).pc ≤ ∑ _t ∈ range nT, 2 :=
      Finset.sum_le_sum fun t _ => by cases (w.locals t).pc <;> decide
    rw [Finset.sum_const, Finset.card_range, smul_eq_mul] at h2
    omega
  · have := h.stops hst (Or.inl ht)
    exact ⟨this.1, this.2.1⟩

/-- C44: the token is looked at only after a flush, so a run that reports fewer than 10000 evaluations has not been influenced
by it: its results are results of the calculation without cancellation. -/
theorem C44_short_runs (h : ExactEquity ranges b d nT cancelled stopped (.ok r) sent) (he : r.evalCount < 10000) :
    ExactEquity ranges b d nT false false (.ok r) sent := by
  unfold ExactEquity at h ⊢
  split at h
  · exact absurd h.1 (by simp)
  · rename_i s hok
    obtain ⟨r0, flag, ds, total, size, w, h1, h2, h3, h4, h5, h6, h7, h8, h9⟩ := h
    have hr : r = finishResults s flag w.shared.results := by simpa using h7
    have hev := (finishResults_counts s flag w.shared.results).2.2.2.1
    rw [← hr] at hev
    rcases h5.token with ⟨ht, _⟩ | ht | ⟨t, ht, hf, _⟩
    · exact ⟨r0, flag, ds, total, size, _, h1, h2, h3, h4, ht, h6, h7, h8, rfl⟩
    · omega
    · rw [h6 t ht] at hf; cases hf

/-- The number of evaluations on a complete board: one per legal deal. -/
theorem Run.evals_complete {s : Sim} {ds : List DividerU64} {total size flag : Nat} {r0 : Results} {hist : List (Batch × HandStats)}
    {D : Multiset Nat} (h : Run ranges b d nT stopped r s ds total size flag r0 hist D) (h5 : (maskCards b).length = 5) :
    r.evalCount ≤ (deals (specRanges ranges) (maskCards b ++ maskCards d)).length := by
  obtain ⟨L, rfl⟩ := Quot.exists_rep D
  have hfull := congrArg Prod.snd h.full
  have hL : L.Subperm (List.range total) := by
    have := h.sub
    rw [← Multiset.coe_range] at this
    exact Multiset.coe_le.1 this
  rw [← (posDeals h.ready).length_eq]
  have hc : BOARD_CARDS - s.fixedBoard.count = 0 := by
    rw [h.ready.fields.2.2.2.1, (C08_counters (maskCards_isCards b) (by omega)
      (fun s _ => (List.countP_le_length).trans (by omega))).1, h5]
    rfl
  have e : ∀ L : List Nat, (sumOf (posFull s ds) (L : Multiset Nat)).2 = (L.filterMap (posDeal s ds)).length := by
    intro L
    induction L with
    | nil => rfl
    | cons p L ih =>
      have : sumOf (posFull s ds) ((p :: L : List Nat) : Multiset Nat) = posFull s ds p + sumOf (posFull s ds) (L : Multiset Nat) := by
        unfold sumOf
        rw [← Multiset.cons_coe, Multiset.map_cons, Multiset.sum_cons]
      rw [this, List.filterMap_cons]
      show (posFull s ds p).2 + _ = _
      rw [ih]
      unfold posFull posDeal
      cases s.decode ds p with
      | none => show 0 + _ = _; rw [zero_add]
      | some o => cases o with
        | none => show 0 + _ = _; rw [zero_add]
        | some x =>
          show (boardEvents s.nPlayers x.2 (Sim.dealWeight s.nPlayers x.2) s.fixedBoard x.1).length + _ = _
          unfold boardEvents
          simp only [hc, if_true, List.length_cons, List.length_nil]
          omega
  have : r.evalCount = (L.filterMap (posDeal s ds)).length := hfull.trans (e L)
  rw [this]
  obtain ⟨l, hl1, hl2⟩ := hL
  rw [← (hl1.filterMap (posDeal s ds)).length_eq]
  exact (hl2.filterMap _).length_le

/-- C44: with a complete board and fewer than 10000 legal deals the token has no effect at all. -/
theorem C44_complete_board (hwf : ∀ r ∈ ranges, WfRange r) (hb : CardMask b) (hd : CardMask d) (h5 : (maskCards b).length = 5)
    (hk : (deals (specRanges ranges) (maskCards b ++ maskCards d)).length < 10000)
    (h : ExactEquity ranges b d nT cancelled stopped (.ok r) sent) : ExactEquity ranges b d nT false false (.ok r) sent := by
  obtain ⟨s, ds, total, size, flag, r0, hist, D, hrun, hlen⟩ := exact_run hwf hb hd h
  exact C44_short_runs h ((hrun.evals_complete h5).trans_lt hk)

/-- The river calculation above, cancelled before it starts, counts its one showdown. -/
example (nT : Nat) (hT : 0 < nT) : ∃ r sent, ExactEquity chopHands royalMask 0 nT true true (.ok r) sent ∧
    (r.handResults (getCardIndex 0 1)).total = 1 := by
  obtain ⟨r, sent, h⟩ := chop_run nT true
  refine ⟨r, sent, h, ?_⟩
  have := (C31_hands chop_wf royal_deck zero_deck hT
    (C44_complete_board chop_wf royal_deck zero_deck (by decide +kernel) (by decide +kernel) h) (p := 0) (x := 0) (y := 1)
    (by decide) (by decide) (by decide) (by decide)).2.2.1
  rw [Nat.mul_zero, Nat.zero_add] at this
  rw [this]
  decide +kernel

/-! ## C45 -/

/-- C45: in exact mode the values passed to the callback are non-decreasing and at most 100; there is at least one; without
cancellation the last one is 100. -/
theorem C45_exact_progress (hwf : ∀ r ∈ ranges, WfRange r) (hb : CardMask b) (hd : CardMask d) (hT : 0 < nT)
    (h : ExactEquity ranges b d nT cancelled stopped (.ok r) sent) :
    sent.Pairwise (· ≤ ·) ∧ (∀ x ∈ sent, x ≤ 100) ∧ sent ≠ [] ∧ (stopped = false → sent.getLast? = some 100) :=
  exact_sent hwf hb hd hT h

example (nT : Nat) (hT : 0 < nT) : ∃ r sent, ExactEquity twoHands flopMask 0 nT false false (.ok r) sent ∧ sent.getLast? = some 100 := by
  obtain ⟨r, sent, h⟩ := two_run nT false
  exact ⟨r, sent, h, (C45_exact_progress (by unfold WfRange twoHands; decide) (by unfold CardMask; decide) (by unfold CardMask; decide)
    hT h).2.2.2 rfl⟩

end Pokers
