import Verif.Props.Hands
import Verif.Props.Totals
import Verif.Props.Stopping
/-!
# The rates of a hand (C57) and the results of the random simulation (C58)
-/
namespace Pokers
open Spec CombinedRange
open Finset (range)

variable {ranges : List (List Combo)} {b d nT : Nat} {cancelled stopped : Bool} {r : Results} {sent : List Nat} {sqrt : ℚ → ℚ}
  {target : ℚ} {ex : Bool} {s : Sim} {flag : Nat} {r0 : Results} {hist : List (Batch × HandStats)} {sd : Shows}

/-! ## C57 -/

/-- The shares of tied showdowns are at most half of their weight. -/
theorem handShares_le (sd : Shows) (p x y : Nat) : 0 ≤ handShares sd p x y ∧ handShares sd p x y ≤ (handTies sd p x y : ℚ) / 2 := by
  unfold handTies
  induction sd with
  | nil => simp [handShares, weightOf]
  | cons z sd ih =>
    rw [handShares_cons, weightOf_cons]
    by_cases h : Holds p x y z.1 ∧ p ∈ winners z.2 z.1 ∧ winners z.2 z.1 ≠ [p]
    · rw [if_pos h, if_pos h]
      have h2 : 2 ≤ (winners z.2 z.1).length := by
        have hnd := winners_nodup z.2 z.1
        obtain ⟨_, h1, h2⟩ := h
        generalize winners z.2 z.1 = W at *
        match W, h1, h2 with
        | [a], h1, h2 => rw [List.mem_singleton] at h1; exact absurd (by rw [h1]) h2
        | a :: a' :: W, _, _ => simp
      have h2q : (2 : ℚ) ≤ ((winners z.2 z.1).length : ℚ) := by exact_mod_cast h2
      have hw : (0 : ℚ) ≤ (Spec.dealWeight z.1 : ℚ) := Nat.cast_nonneg _
      have h3 : (Spec.dealWeight z.1 : ℚ) / ((winners z.2 z.1).length : ℚ) ≤ (Spec.dealWeight z.1 : ℚ) / 2 :=
        div_le_div_of_nonneg_left hw (by norm_num) h2q
      have h4 : 0 ≤ (Spec.dealWeight z.1 : ℚ) / ((winners z.2 z.1).length : ℚ) := div_nonneg hw (Nat.cast_nonneg _)
      push_cast
      constructor
      · linarith [ih.1]
      · linarith [ih.2]
    · rw [if_neg h, if_neg h, zero_add, zero_add]
      exact ih

/-- What `finalRecord` says about the rates. -/
theorem finalRecord_rates (c : Cell) (i : HandInfo) :
    let u := finalRecord c i
    (u.total = 0 → u.equity = some 0 ∧ u.winrate = some 0 ∧ u.tierate = some 0) ∧
    (0 < u.total → u.equity = some (((u.wins : ℚ) + u.correctedTies) / (u.total : ℚ)) ∧
      u.winrate = some ((u.wins : ℚ) / (u.total : ℚ)) ∧ u.tierate = some ((u.ties : ℚ) / (u.total : ℚ))) := by
  unfold finalRecord unitOf
  simp only
  constructor
  · intro h
    simp [h]
  · intro h
    have hq : ((c.2.2.1 : Nat) : ℚ) ≠ 0 := by exact_mod_cast h.ne'
    unfold fdiv
    simp [h.ne', hq]

/-- C57 for both calculations. -/
theorem Calc.rates (hdist : ∀ r ∈ ranges, DistinctHands r) (h : Calc sqrt ex ranges b d r s flag r0 hist sd) (hne : hist ≠ [])
    {p : Nat} (hp : p < ranges.length) {x y : Nat} (hx : x < 52) (hy : y < 52) (hxy : x ≠ y) :
    let u := r.handResults (NUM_HANDS * p + getCardIndex x y)
    ((∃ w, Available ranges[p] b d x y w) →
      (u.total = 0 → u.equity = some 0 ∧ u.winrate = some 0 ∧ u.tierate = some 0) ∧
      (0 < u.total → u.equity = some (((u.wins : ℚ) + u.correctedTies) / (u.total : ℚ)) ∧
        u.winrate = some ((u.wins : ℚ) / (u.total : ℚ)) ∧ u.tierate = some ((u.ties : ℚ) / (u.total : ℚ)))) ∧
    ((¬ ∃ w, Available ranges[p] b d x y w) → u.wins = 0 ∧ u.ties = 0 ∧ u.total = 0 ∧ u.correctedTies = 0 ∧ u.equity = none ∧
      u.winrate = some 0 ∧ u.tierate = some 0) := by
  have hf := h.hands
  have hdist' : ∀ r ∈ s.handRanges, DistinctHands r := by
    rw [hf]
    intro r' hr'
    obtain ⟨r1, hr1, rfl⟩ := List.mem_map.1 hr'
    exact distinct_filter (hdist r1 hr1) b d
  have hp' : p < s.handRanges.length := by rw [hf, List.length_map]; exact hp
  have hel : s.handRanges[p] = removeConflictingCombos ranges[p] b d := by simp only [hf, List.getElem_map]
  obtain ⟨h1, h2⟩ := h.record hne hdist' hp'
  obtain ⟨hw, hok⟩ := h.board_hand
  have hkey : ∀ c ∈ s.handRanges[p], (rowKey p c = NUM_HANDS * p + getCardIndex x y ↔ (c.c1 = x ∧ c.c2 = y) ∨ (c.c1 = y ∧ c.c2 = x)) :=
    fun c hc => rowKey_eq hx hy hxy (hw _ (List.getElem_mem hp') c hc)
  intro u
  refine ⟨fun ⟨w, hav⟩ => ?_, fun hno => ?_⟩
  · obtain ⟨c, hc, hcx, hcw⟩ := (available_iff hx hy).1 hav
    have hc' : c ∈ s.handRanges[p] := hel ▸ hc
    have he := h1 c hc'
    rw [(hkey c hc').2 hcx] at he
    have := finalRecord_rates (cellOf u) ⟨c.w, rankInfo b c, drawInfo b c, true⟩
    rwa [← he] at this
  · have hu := h2 (NUM_HANDS * p + getCardIndex x y) (by
      have := C10_card_index_bijective.2.1 x hx y hy hxy
      unfold InRow NUM_HANDS; omega) (by
      intro c hc he
      exact hno ⟨c.w, (available_iff hx hy).2 ⟨c, hel ▸ hc, (hkey c hc).1 he, rfl⟩⟩)
    have hnone : ∀ z ∈ sd, ¬ Holds p x y z.1 := by
      intro z hz hold
      apply hno
      have hdl := h.legal z hz
      have hlen := (h.deals z hz).2
      unfold Spec.deals at hdl
      rw [List.mem_filter, decide_eq_true_iff] at hdl
      obtain ⟨c1, c2⟩ := (mem_choices _ _).1 hdl.1
      obtain ⟨hpl, hcs⟩ := hold
      have hm := c2 p hpl (by rw [← c1]; exact hpl)
      rw [List.getD_eq_getElem _ _ hpl] at hcs
      have hblock := hdl.2.2
      have hmem : ∀ c ∈ [(z.1[p]).1, (z.1[p]).2.1], c ∈ dealt z.1 := fun c hc =>
        List.mem_flatMap.2 ⟨z.1[p], List.getElem_mem hpl, hc⟩
      simp only [specRanges, List.getElem_map, List.mem_map] at hm
      obtain ⟨k, hk, hke⟩ := hm
      unfold toHole at hke
      refine ⟨k.w, ?_, ?_⟩
      · rcases hcs with ⟨e1, e2⟩ | ⟨e1, e2⟩
        · left
          rw [← hke] at e1 e2
          rw [← e1, ← e2]
          exact hk
        · right
          rw [← hke] at e1 e2
          rw [← e1, ← e2]
          exact hk
      · intro c hc
        apply hblock
        apply hmem
        rcases hcs with ⟨e1, e2⟩ | ⟨e1, e2⟩ <;> simp only [List.mem_cons, List.not_mem_nil, or_false] at hc ⊢ <;> rw [e1, e2] <;> tauto
    have hcell := h.counts.hand p hp x hx y hy hxy
    have hz : ∀ (P : List WHand × List Nat → Prop) [DecidablePred P], (∀ z ∈ sd, ¬ P z) → weightOf sd P = 0 := by
      intro P _ hP
      unfold weightOf
      rw [List.filter_eq_nil_iff.2 (fun z hz => by simpa using hP z hz)]
      rfl
    have e1 : handWins sd p x y = 0 := hz _ fun z hz hh => hnone z hz hh.1
    have e2 : handTies sd p x y = 0 := hz _ fun z hz hh => hnone z hz hh.1
    have e3 : handTotal sd p x y = 0 := hz _ fun z hz hh => hnone z hz hh
    have e4 : handShares sd p x y = 0 := by
      unfold handShares
      rw [List.filter_eq_nil_iff.2 (fun z hz => by simpa using fun hh => absurd hh (hnone z hz))]
      rfl
    rw [e1, e2, e3, e4] at hcell
    rw [hcell] at hu
    show (r.handResults (NUM_HANDS * p + getCardIndex x y)).wins = 0 ∧ _
    have hu' : u = _ := hu
    change u.wins = 0 ∧ _
    rw [hu']
    unfold unitOf fdiv
    simp

/-- The order of the rates. -/
theorem Calc.rate_bounds (h : Calc sqrt ex ranges b d r s flag r0 hist sd)
    {p : Nat} (hp : p < ranges.length) {x y : Nat} (hx : x < 52) (hy : y < 52) (hxy : x ≠ y) :
    let u := r.handResults (NUM_HANDS * p + getCardIndex x y)
    u.wins + u.ties ≤ u.total ∧ 0 ≤ u.correctedTies ∧ u.correctedTies ≤ (u.ties : ℚ) / 2 := by
  have hcell := h.counts.hand p hp x hx y hy hxy
  have h1 := congrArg (fun c : Cell => c.1) hcell
  have h2 := congrArg (fun c : Cell => c.2.1) hcell
  have h3 := congrArg (fun c : Cell => c.2.2.1) hcell
  have h4 := congrArg (fun c : Cell => c.2.2.2) hcell
  simp only [cellOf] at h1 h2 h3 h4
  simp only
  rw [h1, h2, h3, h4]
  exact ⟨hand_counts_le _ _ _ _, handShares_le _ _ _ _⟩

/-- The rates in order: at least the wins, at most the wins and half of the ties. -/
theorem Calc.rate_order (hdist : ∀ r ∈ ranges, DistinctHands r) (h : Calc sqrt ex ranges b d r s flag r0 hist sd) (hne : hist ≠ [])
    {p : Nat} (hp : p < ranges.length) {x y : Nat} (hx : x < 52) (hy : y < 52) (hxy : x ≠ y)
    (hav : ∃ w, Available ranges[p] b d x y w) :
    let u := r.handResults (NUM_HANDS * p + getCardIndex x y)
    ∃ e w t : ℚ, u.equity = some e ∧ u.winrate = some w ∧ u.tierate = some t ∧ 0 ≤ w ∧ 0 ≤ t ∧ w + t ≤ 1 ∧ w ≤ e ∧ e ≤ w + t / 2 := by
  intro u
  obtain ⟨h0, h1⟩ := (h.rates hdist hne hp hx hy hxy).1 hav
  obtain ⟨b1, b2, b3⟩ := h.rate_bounds hp hx hy hxy
  by_cases ht : u.total = 0
  · obtain ⟨e1, e2, e3⟩ := h0 ht
    exact ⟨0, 0, 0, e1, e2, e3, le_rfl, le_rfl, by norm_num, le_rfl, by norm_num⟩
  · have hpos : 0 < u.total := Nat.pos_of_ne_zero ht
    obtain ⟨e1, e2, e3⟩ := h1 hpos
    have hq : (0 : ℚ) < (u.total : ℚ) := by exact_mod_cast hpos
    have b1' : (u.wins : ℚ) + (u.ties : ℚ) ≤ (u.total : ℚ) := by exact_mod_cast b1
    have b2' : 0 ≤ u.correctedTies := b2
    have b3' : u.correctedTies ≤ (u.ties : ℚ) / 2 := b3
    refine ⟨_, _, _, e1, e2, e3, ?_, ?_, ?_, ?_, ?_⟩
    · exact div_nonneg (Nat.cast_nonneg _) hq.le
    · exact div_nonneg (Nat.cast_nonneg _) hq.le
    · rw [← add_div, div_le_one hq]; exact b1'
    · exact div_le_div_of_nonneg_right (by linarith) hq.le
    · rw [div_div, mul_comm (u.total : ℚ) 2, ← div_div, ← add_div]
      exact div_le_div_of_nonneg_right (by linarith) hq.le

theorem exact_calc_pos (hwf : ∀ r ∈ ranges, WfRange r) (hb : CardMask b) (hd : CardMask d) (hT : 0 < nT)
    (h : ExactEquity ranges b d nT cancelled stopped (.ok r) sent) :
    ∃ (s : Sim) (flag : Nat) (r0 : Results) (hist : List (Batch × HandStats)) (sd : Shows), hist ≠ [] ∧
      Calc id s.calcExact ranges b d r s flag r0 hist sd := by
  obtain ⟨s, flag, r0, hist, dls, _, hlen, hc⟩ := exact_calc hwf hb hd h
  refine ⟨s, flag, r0, hist, _, ?_, hc⟩
  rintro rfl
  have := (exact_sent hwf hb hd hT h).2.2.1
  rw [List.length_nil, List.length_eq_zero_iff] at hlen
  exact this hlen

/-- C57: the rates of a hand of the range are the quotients of its counters: of the weight of the showdowns with this hand, the
part won alone, the part tied, and for the equity the part won together with the shares of the ties; all are 0 if the hand was
never dealt.  For a hand that is not in the range or blocked nothing is counted and the equity is `NaN`. -/
theorem C57_rates (hwf : ∀ r ∈ ranges, WfRange r) (hdist : ∀ r ∈ ranges, DistinctHands r) (hb : CardMask b) (hd : CardMask d)
    (hT : 0 < nT) (h : ExactEquity ranges b d nT cancelled stopped (.ok r) sent) {p : Nat} (hp : p < ranges.length) {x y : Nat}
    (hx : x < 52) (hy : y < 52) (hxy : x ≠ y) :
    let u := r.handResults (NUM_HANDS * p + getCardIndex x y)
    ((∃ w, Available ranges[p] b d x y w) →
      (u.total = 0 → u.equity = some 0 ∧ u.winrate = some 0 ∧ u.tierate = some 0) ∧
      (0 < u.total → u.equity = some (((u.wins : ℚ) + u.correctedTies) / (u.total : ℚ)) ∧
        u.winrate = some ((u.wins : ℚ) / (u.total : ℚ)) ∧ u.tierate = some ((u.ties : ℚ) / (u.total : ℚ)))) ∧
    ((¬ ∃ w, Available ranges[p] b d x y w) → u.wins = 0 ∧ u.ties = 0 ∧ u.total = 0 ∧ u.correctedTies = 0 ∧ u.equity = none ∧
      u.winrate = some 0 ∧ u.tierate = some 0) := by
  obtain ⟨_, _, _, _, _, hne, hc⟩ := exact_calc_pos hwf hb hd hT h
  exact hc.rates hdist hne hp hx hy hxy

/-- C57 without cancellation: the equity of a hand is the expected share of the pot over all showdowns in which it is dealt. -/
theorem C57_equity (hwf : ∀ r ∈ ranges, WfRange r) (hdist : ∀ r ∈ ranges, DistinctHands r) (hb : CardMask b) (hd : CardMask d)
    (hT : 0 < nT) (h : ExactEquity ranges b d nT cancelled false (.ok r) sent) {p : Nat} (hp : p < ranges.length) {x y : Nat}
    (hx : x < 52) (hy : y < 52) (hxy : x ≠ y) (hav : ∃ w, Available ranges[p] b d x y w) :
    let sd := showdowns (specRanges ranges) (maskCards b) (maskCards d)
    let u := r.handResults (NUM_HANDS * p + getCardIndex x y)
    0 < handTotal sd p x y → u.equity = some (((handWins sd p x y : ℚ) + handShares sd p x y) / (handTotal sd p x y : ℚ)) ∧
      u.winrate = some ((handWins sd p x y : ℚ) / (handTotal sd p x y : ℚ)) ∧
      u.tierate = some ((handTies sd p x y : ℚ) / (handTotal sd p x y : ℚ)) := by
  intro sd u hpos
  obtain ⟨h1, h2, h3, h4⟩ := C31_hands hwf hb hd hT h hp hx hy hxy
  have := ((C57_rates hwf hdist hb hd hT h hp hx hy hxy).1 hav).2
  simp only [h1, h2, h3, h4] at this
  exact this hpos

/-- C57: the rates of a hand of the range are numbers with `0 ≤ winrate`, `0 ≤ tierate`, `winrate + tierate ≤ 1` and
`winrate ≤ equity ≤ winrate + tierate / 2`. -/
theorem C57_order (hwf : ∀ r ∈ ranges, WfRange r) (hdist : ∀ r ∈ ranges, DistinctHands r) (hb : CardMask b) (hd : CardMask d)
    (hT : 0 < nT) (h : ExactEquity ranges b d nT cancelled stopped (.ok r) sent) {p : Nat} (hp : p < ranges.length) {x y : Nat}
    (hx : x < 52) (hy : y < 52) (hxy : x ≠ y) (hav : ∃ w, Available ranges[p] b d x y w) :
    let u := r.handResults (NUM_HANDS * p + getCardIndex x y)
    ∃ e w t : ℚ, u.equity = some e ∧ u.winrate = some w ∧ u.tierate = some t ∧ 0 ≤ w ∧ 0 ≤ t ∧ w + t ≤ 1 ∧ w ≤ e ∧ e ≤ w + t / 2 := by
  obtain ⟨_, _, _, _, _, hne, hc⟩ := exact_calc_pos hwf hb hd hT h
  exact hc.rate_order hdist hne hp hx hy hxy hav

/-- Two pairs of weight 1 on a royal flush: the equity of both hands is one half (while those of the players are `NaN`,
`C34_nan_equities`), and that of a hand not in the range is `NaN`. -/
example (nT : Nat) (hT : 0 < nT) : ∃ r sent, ExactEquity chopHands royalMask 0 nT false false (.ok r) sent ∧
    (r.handResults (NUM_HANDS * 1 + getCardIndex 4 5)).equity = some (1 / 2) ∧
    (r.handResults (NUM_HANDS * 1 + getCardIndex 50 51)).equity = none := by
  obtain ⟨r, sent, h⟩ := chop_run nT false
  have hds : ∀ r ∈ chopHands, DistinctHands r := by unfold DistinctHands chopHands; decide
  have hav : ∃ w, Available chopHands[1] royalMask 0 4 5 w := ⟨1, by unfold Available chopHands; decide +kernel⟩
  have hna : ¬ ∃ w, Available chopHands[1] royalMask 0 50 51 w := by
    rintro ⟨w, hw, _⟩
    simp [chopHands] at hw
  have e1 : handWins (showdowns (specRanges chopHands) (maskCards royalMask) (maskCards 0)) 1 4 5 = 0 := by decide +kernel
  have e2 : handTotal (showdowns (specRanges chopHands) (maskCards royalMask) (maskCards 0)) 1 4 5 = 1 := by decide +kernel
  have e3 : handShares (showdowns (specRanges chopHands) (maskCards royalMask) (maskCards 0)) 1 4 5 = 1 / 2 := by decide +kernel
  have h1 := (C57_equity chop_wf hds royal_deck zero_deck hT h (p := 1) (by decide) (x := 4) (y := 5) (by decide) (by decide)
    (by decide) hav (by rw [e2]; decide)).1
  rw [e1, e2, e3] at h1
  refine ⟨r, sent, h, ?_, ((C57_rates chop_wf hds royal_deck zero_deck hT h (p := 1) (by decide) (x := 50) (y := 51) (by decide)
    (by decide) (by decide)).2 hna).2.2.2.2.1⟩
  rw [h1]
  norm_num

/-! ## C58 -/

/-- Every batch contains the weights of some legal showdowns. -/
theorem McRun.batch_shows (h : McRun sqrt ranges b d r s flag r0 hist sd) {x : Batch × HandStats} (hx : x ∈ hist) :
    ∃ sd' : Shows, (∀ y ∈ sd', y ∈ showdowns (specRanges ranges) (maskCards b) (maskCards d)) ∧
      ∀ i < 2 ^ ranges.length, x.1.winsByMask i = weightOf sd' fun y => u8Mask (winners y.2 y.1) = i := by
  obtain ⟨sd', h1, h2⟩ := h.batches x hx
  refine ⟨sd', fun y hy => legal_iff.1 (h1 y hy), fun i _ => ?_⟩
  rw [← sdTally_mask]
  exact congrFun (congrArg (fun z : FT => z.1.1) h2) i

/-- The random simulation is such a calculation. -/
theorem McRun.calc (h : McRun sqrt ranges b d r s flag r0 hist sd) : Calc sqrt false ranges b d r s flag r0 hist sd := by
  obtain ⟨f1, f2, _, _, _, f6, f7, _, _, f10⟩ := h.ready.fields
  obtain ⟨s0, e1, _, e3⟩ := h.ready.exact
  refine ⟨h.ready.wf, h.ready.boardMask, h.ready.deadMask, f1, f2, f6, f7, f10, ?_, h.start, h.final, h.ids, h.counts.1,
    fun x hx => (h.legal x hx).1, fun x hx => h.batch_shows hx⟩
  rw [e3, (prepareExact_ok e1).sim]
  rfl

/-- A thread that is done has updated the results. -/
theorem McSteps.flushed {s : Sim} {r0 : Results} {w : McWorld} (h : McSteps sqrt target s nT (McWorld.init s r0 cancelled) w) :
    (∃ t, (w.locals t).pc = .done) → w.shared.sent ≠ [] := by
  have key : ∀ l g ds l' g', mcStep sqrt target s l g ds = .ok (l', g') [] → (g.sent ≠ [] → g'.sent ≠ []) ∧
      (l.pc ≠ .done → l'.pc = .done → g'.sent ≠ []) := by
    intro l g ds l' g' hs
    unfold mcStep at hs
    split at hs <;> rename_i hpc
    all_goals (repeat' split at hs)
    all_goals first | (cases hs; done) | skip
    all_goals
      obtain ⟨h1, h2⟩ := Prod.mk.inj (Out.ok.inj hs).1
      subst h1 h2
      refine ⟨fun h => ?_, fun h h' => ?_⟩
      · first | exact h | simp [McShared.update]
      · first
          | exact absurd hpc h
          | exact absurd h' h
          | (cases h'; done)
          | (show _ ++ [_] ≠ []; simp)
  induction h with
  | refl => rintro ⟨t, ht⟩; cases ht
  | step _ hstep ih =>
    cases hstep with
    | cancel => exact ih
    | thread t ht hpc ds l g hs =>
      rintro ⟨t', ht'⟩
      have hk := key _ _ _ _ _ hs
      simp only at ht' ⊢
      by_cases htt : t' = t
      · subst htt
        rw [Function.update_self] at ht'
        exact hk.2 hpc.1 ht'
      · rw [Function.update_of_ne htt] at ht'
        exact hk.1 (ih ⟨t', ht'⟩)

theorem approx_calc (hwf : ∀ r ∈ ranges, WfRange r) (hb : CardMask b) (hd : CardMask d)
    (h : ApproxEquity sqrt ranges b d nT target cancelled (.ok r) sent) :
    ∃ (s : Sim) (flag : Nat) (r0 : Results) (hist : List (Batch × HandStats)) (sd : Shows), sent.length = hist.length ∧
      (0 < nT → hist ≠ []) ∧ Calc sqrt false ranges b d r s flag r0 hist sd := by
  obtain ⟨s, flag, r0, hist, sd, hrun, hlen⟩ := approx_run hwf hb hd h
  obtain ⟨s', r0', flag', w, _, _, _, hs, hdone, _, he⟩ := approx_world hwf hb hd h
  refine ⟨s, flag, r0, hist, sd, hlen, fun hT hh => ?_, hrun.calc⟩
  rw [hh, List.length_nil, List.length_eq_zero_iff, he] at hlen
  exact hs.flushed ⟨0, hdone 0 hT⟩ hlen

/-- C58: the equities reported by `approx_equity` are each player's part of all wins and ties: numbers between 0 and 1 whose sum
is 1, or all `NaN` if there are no wins and ties. -/
theorem C58_equities (hwf : ∀ r ∈ ranges, WfRange r) (hb : CardMask b) (hd : CardMask d)
    (h : ApproxEquity sqrt ranges b d nT target cancelled (.ok r) sent) :
    let S := ∑ q ∈ range ranges.length, ((r.wins q : ℚ) + r.ties q)
    (0 < S → ∃ es : List ℚ, r.equities = es.map some ∧ es.length = ranges.length ∧ es.sum = 1 ∧ (∀ e ∈ es, 0 ≤ e ∧ e ≤ 1) ∧
      ∀ p < ranges.length, es[p]? = some (((r.wins p : ℚ) + r.ties p) / S)) ∧
    (¬ 0 < S → r.equities = List.replicate ranges.length none ∧ ∀ p < ranges.length, r.wins p = 0 ∧ r.ties p = 0) := by
  obtain ⟨_, _, _, _, _, _, _, hc⟩ := approx_calc hwf hb hd h
  exact hc.equity_parts

/-- C58: the ties of a player: each update divides the count of every shared mask of the player by the number of winners,
dropping the remainder. -/
theorem C58_integer_division (hwf : ∀ r ∈ ranges, WfRange r) (hb : CardMask b) (hd : CardMask d)
    (h : ApproxEquity sqrt ranges b d nT target cancelled (.ok r) sent) : ∃ batches : List (Nat → Nat),
      batches.length = sent.length ∧
      (∀ i < 2 ^ ranges.length, r.winsByMask i = (batches.map fun f => f i).sum) ∧
      ∀ p < ranges.length, r.ties p = (((batches.map fun f => ∑ i ∈ range (2 ^ ranges.length),
        if i.testBit p = true ∧ countOnes i ≠ 1 then f i / countOnes i else 0).sum : Nat) : ℚ) := by
  obtain ⟨_, _, _, _, _, hlen, _, hc⟩ := approx_calc hwf hb hd h
  rw [hlen]
  exact hc.integer_division

/-- C58: conservation.  The totals of the hands of each player, and the counts of all masks, sum to the same number; so do all
hand wins and tie shares of all players together.  With up to eight players the hand wins of a player sum to the player's wins. -/
theorem C58_conservation (hwf : ∀ r ∈ ranges, WfRange r) (hb : CardMask b) (hd : CardMask d)
    (h : ApproxEquity sqrt ranges b d nT target cancelled (.ok r) sent) :
    let T := ∑ i ∈ range (2 ^ ranges.length), r.winsByMask i
    (∀ p < ranges.length, ∑ k ∈ range NUM_HANDS, (r.handResults (NUM_HANDS * p + k)).total = T) ∧
    ∑ p ∈ range ranges.length, ∑ k ∈ range NUM_HANDS, (((r.handResults (NUM_HANDS * p + k)).wins : ℚ) +
      (r.handResults (NUM_HANDS * p + k)).correctedTies) = (T : ℚ) ∧
    (ranges.length ≤ 8 → ∀ p < ranges.length, ∑ k ∈ range NUM_HANDS, (r.handResults (NUM_HANDS * p + k)).wins = r.wins p) := by
  obtain ⟨_, _, _, _, _, _, _, hc⟩ := approx_calc hwf hb hd h
  exact hc.conservation

/-- C58: there are 169 combo results per player, in the order of the combos, each the aggregate of its hands. -/
theorem C58_combos (hwf : ∀ r ∈ ranges, WfRange r) (hb : CardMask b) (hd : CardMask d)
    (h : ApproxEquity sqrt ranges b d nT target cancelled (.ok r) sent) :
    r.comboResults = (List.range ranges.length).flatMap (fun p => preCombos.map (comboOf r p)) := by
  obtain ⟨_, _, _, _, _, _, _, hc⟩ := approx_calc hwf hb hd h
  exact hc.combos

/-- C58: `get_combo_result` knows exactly the 169 combo names and returns the aggregate of that combo. -/
theorem C58_combo_result (hwf : ∀ r ∈ ranges, WfRange r) (hb : CardMask b) (hd : CardMask d)
    (h : ApproxEquity sqrt ranges b d nT target cancelled (.ok r) sent) {p : Nat} (hp : p < ranges.length) (name : List Char)
    (o : Option UnitResults) :
    getComboResult r p name = some o ↔ ∃ c ∈ preCombos, name = c.name ∧ o = some (comboOf r p c) := by
  obtain ⟨_, _, _, _, _, _, _, hc⟩ := approx_calc hwf hb hd h
  exact hc.combo_result hp name o

/-- C58: a hand is reported as valid exactly if it is in the player's range and not blocked; the reported weight is its weight. -/
theorem C58_weights (hwf : ∀ r ∈ ranges, WfRange r) (hdist : ∀ r ∈ ranges, DistinctHands r) (hb : CardMask b) (hd : CardMask d)
    (h : ApproxEquity sqrt ranges b d nT target cancelled (.ok r) sent) {p : Nat} (hp : p < ranges.length) {x y : Nat} (hx : x < 52)
    (hy : y < 52) (hxy : x ≠ y) :
    let u := r.handResults (NUM_HANDS * p + getCardIndex x y)
    (u.valid = true ↔ ∃ w, Available ranges[p] b d x y w) ∧ (∀ w, Available ranges[p] b d x y w → u.weight = w) ∧
    (u.valid = false → u.weight = 0) := by
  obtain ⟨_, _, _, _, _, _, _, hc⟩ := approx_calc hwf hb hd h
  exact hc.weights hdist hp hx hy hxy

/-- C58: with three or more board cards, the reported category of every hand of the range is the category of the best hand it
makes with the board. -/
theorem C58_category (hwf : ∀ r ∈ ranges, WfRange r) (hdist : ∀ r ∈ ranges, DistinctHands r) (hb : CardMask b) (hd : CardMask d)
    (h : ApproxEquity sqrt ranges b d nT target cancelled (.ok r) sent) {p : Nat} (hp : p < ranges.length) {x y : Nat} (hx : x < 52)
    (hy : y < 52) (hxy : x ≠ y) (h3 : 3 ≤ (maskCards b).length) {w : Nat} (hav : Available ranges[p] b d x y w) :
    (r.handResults (NUM_HANDS * p + getCardIndex x y)).rank < 9 ∧
    ∀ z ∈ playable (maskCards b ++ [x, y]), (∀ z' ∈ playable (maskCards b ++ [x, y]), value z' ≤ value z) →
      (r.handResults (NUM_HANDS * p + getCardIndex x y)).rank + 1 = category z := by
  obtain ⟨_, _, _, _, _, _, _, hc⟩ := approx_calc hwf hb hd h
  exact hc.category hdist hp hx hy hxy h3 hav

/-- C58: with three or more board cards, the table by category and the table by draw hold the sums over the player's hands of
that category or with that draw, and every hand of the range is counted in exactly one category. -/
theorem C58_tables (hwf : ∀ r ∈ ranges, WfRange r) (hdist : ∀ r ∈ ranges, DistinctHands r) (hb : CardMask b) (hd : CardMask d)
    (h : ApproxEquity sqrt ranges b d nT target cancelled (.ok r) sent) {p : Nat} (hp : p < ranges.length)
    (h3 : 3 ≤ (maskCards b).length) :
    (∀ c < 9, r.boardResults (9 * p + c) = tableRecord (sumHands (categoryHands r p c))) ∧
    (∀ c < 10, r.boardDraws (10 * p + c) = tableRecord (sumHands (drawHands r p c))) ∧
    ((List.range 9).flatMap (categoryHands r p)).Perm ((handsOf p r.handResults allHands).filter (·.valid)) := by
  obtain ⟨_, _, _, _, _, _, _, hc⟩ := approx_calc hwf hb hd h
  exact ⟨(hc.tables hdist hp h3).1, (hc.tables hdist hp h3).2, hc.partition hdist hp h3⟩

/-- C58: the rates of a hand are the quotients of its counters, as for the exact calculation (`C57_rates`). -/
theorem C58_rates (hwf : ∀ r ∈ ranges, WfRange r) (hdist : ∀ r ∈ ranges, DistinctHands r) (hb : CardMask b) (hd : CardMask d)
    (hT : 0 < nT) (h : ApproxEquity sqrt ranges b d nT target cancelled (.ok r) sent) {p : Nat} (hp : p < ranges.length) {x y : Nat}
    (hx : x < 52) (hy : y < 52) (hxy : x ≠ y) :
    let u := r.handResults (NUM_HANDS * p + getCardIndex x y)
    ((∃ w, Available ranges[p] b d x y w) →
      (u.total = 0 → u.equity = some 0 ∧ u.winrate = some 0 ∧ u.tierate = some 0) ∧
      (0 < u.total → u.equity = some (((u.wins : ℚ) + u.correctedTies) / (u.total : ℚ)) ∧
        u.winrate = some ((u.wins : ℚ) / (u.total : ℚ)) ∧ u.tierate = some ((u.ties : ℚ) / (u.total : ℚ)))) ∧
    ((¬ ∃ w, Available ranges[p] b d x y w) → u.wins = 0 ∧ u.ties = 0 ∧ u.total = 0 ∧ u.correctedTies = 0 ∧ u.equity = none ∧
      u.winrate = some 0 ∧ u.tierate = some 0) := by
  obtain ⟨_, _, _, _, _, _, hne, hc⟩ := approx_calc hwf hb hd h
  exact hc.rates hdist (hne hT) hp hx hy hxy

/-- C58: the rates are in order, as for the exact calculation (`C57_order`). -/
theorem C58_order (hwf : ∀ r ∈ ranges, WfRange r) (hdist : ∀ r ∈ ranges, DistinctHands r) (hb : CardMask b) (hd : CardMask d)
    (hT : 0 < nT) (h : ApproxEquity sqrt ranges b d nT target cancelled (.ok r) sent) {p : Nat} (hp : p < ranges.length) {x y : Nat}
    (hx : x < 52) (hy : y < 52) (hxy : x ≠ y) (hav : ∃ w, Available ranges[p] b d x y w) :
    let u := r.handResults (NUM_HANDS * p + getCardIndex x y)
    ∃ e w t : ℚ, u.equity = some e ∧ u.winrate = some w ∧ u.tierate = some t ∧ 0 ≤ w ∧ 0 ≤ t ∧ w + t ≤ 1 ∧ w ≤ e ∧ e ≤ w + t / 2 := by
  obtain ⟨_, _, _, _, _, _, hne, hc⟩ := approx_calc hwf hb hd h
  exact hc.rate_order hdist (hne hT) hp hx hy hxy hav

/-- In a simulation of aces against kings on a flop the only hand of each player is valid and the total of the hands of a player
is the weight of all showdowns. -/
example (sqrt : ℚ → ℚ) : ∃ r sent, ApproxEquity sqrt twoHands flopMask 0 3 (1 / 100) false (.ok r) sent ∧ r.evalCount = 12288 ∧
    (r.handResults (NUM_HANDS * 1 + getCardIndex 46 47)).valid = true ∧
    ∃ e, (r.handResults (NUM_HANDS * 1 + getCardIndex 46 47)).equity = some e ∧ 0 ≤ e ∧ e ≤ 1 := by
  obtain ⟨r, sent, h, he⟩ := two_approx sqrt (1 / 100) 3 false
  have hwf : ∀ r ∈ twoHands, WfRange r := by unfold WfRange twoHands; decide
  have hds : ∀ r ∈ twoHands, DistinctHands r := by unfold DistinctHands twoHands; decide
  have hb : CardMask flopMask := by unfold CardMask; decide
  have hd : CardMask 0 := by unfold CardMask; decide
  have hav : ∃ w, Available twoHands[1] flopMask 0 46 47 w := ⟨50, by unfold Available twoHands; decide +kernel⟩
  refine ⟨r, sent, h, by rw [he], (C58_weights hwf hds hb hd h (p := 1) (by decide) (x := 46) (y := 47) (by decide) (by decide)
    (by decide)).1.2 hav, ?_⟩
  obtain ⟨e, w, t, h1, _, _, h2, h3, h4, h5, h6⟩ := C58_order hwf hds hb hd (by decide) h (p := 1) (by decide) (x := 46) (y := 47)
    (by decide) (by decide) (by decide) hav
  exact ⟨e, h1, by linarith, by linarith⟩

end Pokers
