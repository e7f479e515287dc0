import Verif.Proofs.Space
import Verif.Proofs.Visited
import Verif.Props.Confined
import Verif.Props.Docs
/-!
# The accuracy of the random simulation with any ranges (C91)

A batch begins with a deal whose indexes `randomize_hole_cards` draws, all legal ones being equally likely; before each of the other 4095
evaluations one of the combined ranges is drawn, and its players get the next hands (src/equity_calculator/simulator.rs:1008-1074); each board is
drawn from all boards that can be dealt.  So a batch is one of the lists of showdowns in `batchSpace`, which are all equally likely, and `K`
batches are one of the lists in `runSpace`.
-/
namespace Pokers
open Spec
open CombinedRange

variable {sqrt : ℚ → ℚ} {ranges : List (List Combo)} {b d nT : Nat} {target : ℚ} {cancelled : Bool} {r : Results} {sent : List Nat} {s : Sim}

/-- The combined ranges that can be drawn before the evaluations of a batch. -/
def moveLists (s : Sim) : List (List Nat) := choices (List.replicate 4095 (List.range s.combinedRanges.length))

/-- The deals of a batch that begins with the indexes `x` and makes the moves `mv`. -/
def trackDeals (s : Sim) (b d : Nat) (x mv : List Nat) : List (List WHand) := (visited s.combinedRanges (b ||| d) x mv).map (dealAt s)

/-- All batches. -/
def batchSpace (s : Sim) (b d : Nat) : List (List (List WHand × List Nat)) :=
  pathSpace (maskCards b) (maskCards d) (legalIdxs s.combinedRanges (b ||| d)) (moveLists s) (trackDeals s b d)

/-- All results of `K` batches. -/
def runSpace (s : Sim) (b d K : Nat) : List (List (List WHand × List Nat)) := (choices (List.replicate K (batchSpace s b d))).map List.flatten

theorem mem_moveLists {mv : List Nat} : mv ∈ moveLists s ↔ mv.length = 4095 ∧ ∀ i ∈ mv, i < s.combinedRanges.length := by
  unfold moveLists
  rw [mem_choices]
  constructor
  · rintro ⟨h1, h2⟩
    rw [List.length_replicate] at h1
    refine ⟨h1, fun i hi => ?_⟩
    obtain ⟨k, hk, rfl⟩ := List.getElem_of_mem hi
    have := h2 k hk (by rw [List.length_replicate]; omega)
    rw [List.getElem_replicate] at this
    exact List.mem_range.1 this
  · rintro ⟨h1, h2⟩
    refine ⟨by rw [List.length_replicate, h1], fun i hi hi' => ?_⟩
    rw [List.getElem_replicate]
    exact List.mem_range.2 (h2 _ (List.getElem_mem hi))

theorem mem_batchSpace {B : List (List WHand × List Nat)} : B ∈ batchSpace s b d ↔ ∃ x ∈ legalIdxs s.combinedRanges (b ||| d), ∃ mv ∈ moveLists s,
    B.map Prod.fst = trackDeals s b d x mv ∧ ∀ y ∈ B, y.2 ∈ boards (maskCards b) (maskCards d) y.1 := by
  unfold batchSpace pathSpace
  simp only [List.mem_flatMap, mem_outcomes]

theorem mem_runSpace {sd : List (List WHand × List Nat)} {K : Nat} : sd ∈ runSpace s b d K ↔
    ∃ batches : List (List (List WHand × List Nat)), batches.length = K ∧ (∀ B ∈ batches, B ∈ batchSpace s b d) ∧ sd = batches.flatten := by
  unfold runSpace
  rw [List.mem_map]
  constructor
  · rintro ⟨batches, h, rfl⟩
    obtain ⟨h1, h2⟩ := (mem_choices _ _).1 h
    rw [List.length_replicate] at h1
    refine ⟨batches, h1, fun B hB => ?_, rfl⟩
    obtain ⟨k, hk, rfl⟩ := List.getElem_of_mem hB
    have := h2 k hk (by rw [List.length_replicate]; omega)
    rw [List.getElem_replicate] at this
    exact this
  · rintro ⟨batches, h1, h2, rfl⟩
    refine ⟨batches, (mem_choices _ _).2 ⟨by rw [List.length_replicate, h1], fun i hi hi' => ?_⟩, rfl⟩
    rw [List.getElem_replicate]
    exact h2 _ (List.getElem_mem hi)

theorem trackDeals_length (s : Sim) (b d : Nat) (x mv : List Nat) : (trackDeals s b d x mv).length = mv.length + 1 := by
  unfold trackDeals
  rw [List.length_map, visited_length]

/-- The number of boards. -/
def boardCount (ranges : List (List Combo)) (b d : Nat) : Nat :=
  (((List.range 52).filter fun c => c ∉ maskCards b ++ maskCards d).length - 2 * ranges.length).choose (5 - (maskCards b).length)

theorem McReady.deals_ne (h : McReady ranges b d s) (hne : deals (specRanges ranges) (maskCards b ++ maskCards d) ≠ []) :
    legalIdxs s.combinedRanges (b ||| d) ≠ [] := by
  intro e
  have := h.dealAt_perm.length_eq
  rw [e, List.map_nil, List.length_nil] at this
  exact hne (List.length_eq_zero_iff.1 this.symm)

/-- At each place of a batch every deal comes up equally often. -/
theorem McReady.balanced (h : McReady ranges b d s) (hne : deals (specRanges ranges) (maskCards b ++ maskCards d) ≠ [])
    (hbd : ∀ dd ∈ deals (specRanges ranges) (maskCards b ++ maskCards d), boards (maskCards b) (maskCards d) dd ≠ []) :
    Balanced (maskCards b) (maskCards d) (legalIdxs s.combinedRanges (b ||| d)) (moveLists s) (trackDeals s b d)
      (deals (specRanges ranges) (maskCards b ++ maskCards d)) 4096 (boardCount ranges b d) where
  first := h.deals_ne hne
  moves := choices_ne_nil fun l hl => by
    rw [List.eq_of_mem_replicate hl, ← List.length_pos_iff, List.length_range]
    exact h.nonempty
  length := fun x _ mv hmv => by rw [trackDeals_length, (mem_moveLists.1 hmv).1]
  perm := by
    intro mv hmv k hk
    obtain ⟨h1, h2⟩ := mem_moveLists.1 hmv
    have e : ∀ x ∈ legalIdxs s.combinedRanges (b ||| d), (trackDeals s b d x mv).getD k [] =
        (dealAt s ∘ idxAfter s.combinedRanges (b ||| d) (mv.take k)) x := by
      intro x _
      rw [List.getD_eq_getElem _ _ (by rw [trackDeals_length]; omega)]
      unfold trackDeals
      simp only [visited_eq, List.getElem_map, List.getElem_range]
      rfl
    rw [List.map_congr_left e, ← List.map_map]
    exact ((h.idxAfter_perm (mv.take k) fun i hi => h2 i (List.mem_of_mem_take hi)).map _).trans h.dealAt_perm
  boards := fun dd hdd => boards_length h.wf hdd
  pos := by
    obtain ⟨dd, hdd⟩ := List.exists_mem_of_ne_nil _ hne
    have := List.length_pos_iff.2 (hbd dd hdd)
    rw [boards_length h.wf hdd] at this
    exact this

/-! ## Runs -/

theorem approx_tracks (hwf : ∀ r ∈ ranges, WfRange r) (hb : CardMask b) (hd : CardMask d)
    (h : ApproxEquity sqrt ranges b d nT target cancelled (.ok r) sent) :
    ∃ (s : Sim) (flag : Nat) (r0 : Results) (hist : List (Batch × HandStats)) (sd : List (List WHand × List Nat)),
      McRun sqrt ranges b d r s flag r0 hist sd ∧ nT ≤ sent.length ∧ sd ∈ runSpace s b d (sent.length - nT) := by
  obtain ⟨m1, m2⟩ := C53_multiple hwf hb hd h
  obtain ⟨p, hp, h⟩ := h
  cases p with
  | error e => cases h.1
  | ok s =>
    obtain ⟨r0, flag, w, g1, g2, g3, g4, g5⟩ := h
    have hr : McReady ranges b d s := ⟨hwf, hb, hd, hp⟩
    obtain ⟨hist, Dr, Dl, hi, batches, rfl, hB⟩ := McInv.steps_tracks hr g2
    injection g4 with g4
    have hrun : McRun sqrt ranges b d r s flag r0 hist batches.flatten :=
      ⟨hr, g1, by rw [g4, hi.res], hi.hids, hi.hbatch, hi.hsum, hi.hcount, hi.legalR⟩
    have hn : batches.length + nT = sent.length := by
      have := hrun.reports.evals
      rw [length_flatten_const fun B hm => (hB B hm).1, m2] at this
      omega
    refine ⟨s, flag, r0, hist, _, hrun, by omega, mem_runSpace.2 ⟨batches, by omega, fun B hm => ?_, rfl⟩⟩
    obtain ⟨hl, x, mv, ⟨hx, hmv⟩, e⟩ := hB B hm
    refine mem_batchSpace.2 ⟨x, (mem_legalIdxs _ _ x hr.crsOk.1.size).2 hx, mv, mem_moveLists.2 ⟨?_, hmv⟩, e, fun y hy =>
      (hrun.legal y (List.mem_flatten.2 ⟨B, hm, hy⟩)).2⟩
    have := congrArg List.length e
    rw [List.length_map, List.length_map, visited_length, hl] at this
    omega

/-- C91: the result of a run is one of the results in `runSpace`. -/
theorem C91_outcome (hwf : ∀ r ∈ ranges, WfRange r) (hb : CardMask b) (hd : CardMask d) (h8 : ranges.length ≤ 8) (hw : WholeShares ranges b d)
    (h : ApproxEquity sqrt ranges b d nT target cancelled (.ok r) sent) :
    ∃ s, McReady ranges b d s ∧ nT ≤ sent.length ∧ ∃ sd ∈ runSpace s b d (sent.length - nT),
      Reports ranges.length r sd ∧ ∀ p < ranges.length, 0 < totalWeight sd → r.equities[p]? = some (some (equityIn sd p)) := by
  obtain ⟨s, flag, r0, hist, sd, hrun, hn, hsd⟩ := approx_tracks hwf hb hd h
  refine ⟨s, hrun.ready, hn, sd, hsd, hrun.reports, fun p hp hpos => ?_⟩
  rw [(hrun.calc.exact_shares h8 hw).2 p hp, ← winning_sum]
  unfold fdiv equityIn
  rw [if_neg (by exact_mod_cast hpos.ne')]

/-- C91: the same with floating-point numbers, while the sum of the weights is below `2 ^ 53`: the equity is rounded once. -/
theorem C91_outcome_float (hwf : ∀ r ∈ ranges, WfRange r) (hb : CardMask b) (hd : CardMask d) (h8 : ranges.length ≤ 8) (hw : WholeShares ranges b d)
    {dev : ℚ → ℚ → Option ℚ} {prog : Option ℚ → Nat} (h : ApproxEquityF dev prog ranges b d nT target cancelled (.ok r) sent) :
    ∃ s, McReady ranges b d s ∧ nT ≤ sent.length ∧ ∃ sd ∈ runSpace s b d (sent.length - nT),
      ∀ p < ranges.length, 0 < totalWeight sd → totalWeight sd ≤ 2 ^ 53 → r.equities[p]? = some (some (fl (equityIn sd p))) := by
  obtain ⟨r1, sent1, g1, g2, g3⟩ := C63_approx_mode hwf hb hd h
  obtain ⟨s, flag, r0, hist, sd, hrun, hn, hsd⟩ := approx_tracks hwf hb hd g1
  rw [← g3] at hn hsd
  have hsum : ∑ i ∈ Finset.range (2 ^ ranges.length), r1.winsByMask i = totalWeight sd :=
    hrun.counts.1.maskSum (fun x hx => (deals_wf hwf (hrun.legal x hx).1).1) (by omega)
  refine ⟨s, hrun.ready, hn, sd, hsd, fun p hp hpos h53 => ?_⟩
  rw [g2.once (by rw [hsum]; exact h53), List.getElem?_map, (hrun.calc.exact_shares h8 hw).2 p hp, ← winning_sum]
  unfold fdiv equityIn
  rw [if_neg (by exact_mod_cast hpos.ne')]
  rfl

/-- C91: every result in `runSpace` with one batch for each thread is the result of a run. -/
theorem C91_every (sqrt : ℚ → ℚ) (target : ℚ) (h : McReady ranges b d s) (hT : 0 < nT) (cancelled : Bool) {sd : List (List WHand × List Nat)}
    (hsd : sd ∈ runSpace s b d nT) :
    ∃ r sent, ApproxEquity sqrt ranges b d nT target cancelled (.ok r) sent ∧ sent.length = 2 * nT ∧ Reports ranges.length r sd := by
  obtain ⟨batches, hn, hB, rfl⟩ := mem_runSpace.1 hsd
  have hB' : ∀ t, ∃ B, (t < nT → batches[t]? = some B) ∧ B ∈ batchSpace s b d := by
    intro t
    by_cases ht : t < nT
    · exact ⟨batches[t]'(by omega), fun _ => List.getElem?_eq_getElem _, hB _ (List.getElem_mem _)⟩
    · exact ⟨batches[0]'(by omega), fun h => absurd h ht, hB _ (List.getElem_mem _)⟩
  choose Bt hBt hBm using hB'
  choose x hx mv hmv e hbd using fun t => mem_batchSpace.1 (hBm t)
  have hlen : ∀ t, (Bt t).length = 4096 := fun t => by
    have := congrArg List.length (e t)
    rw [List.length_map, trackDeals_length, (mem_moveLists.1 (hmv t)).1] at this
    exact this
  have hmem := fun x => mem_legalIdxs s.combinedRanges (b ||| d) x h.crsOk.1.size
  -- a board for each deal
  have hany : ∀ dd ∈ deals (specRanges ranges) (maskCards b ++ maskCards d), ∃ B, B ∈ boards (maskCards b) (maskCards d) dd := by
    intro dd hdd
    have hl0 : 0 < (Bt 0).length := by rw [hlen]; decide
    have hy := hbd 0 _ (List.getElem_mem hl0)
    have hd0 : (Bt 0)[0].1 ∈ deals (specRanges ranges) (maskCards b ++ maskCards d) := by
      have h1 : (Bt 0)[0].1 ∈ trackDeals s b d (x 0) (mv 0) := by rw [← e 0]; exact List.mem_map_of_mem (List.getElem_mem hl0)
      unfold trackDeals at h1
      rw [visited_eq] at h1
      obtain ⟨y, hy1, hy2⟩ := List.mem_map.1 h1
      obtain ⟨k, hk, rfl⟩ := List.mem_map.1 hy1
      rw [← hy2]
      refine h.dealAt_perm.mem_iff.1 (List.mem_map_of_mem ?_)
      refine (h.idxAfter_perm ((mv 0).take k) fun i hi => (mem_moveLists.1 (hmv 0)).2 i (List.mem_of_mem_take hi)).mem_iff.1 ?_
      exact List.mem_map_of_mem (hx 0)
    have : boards (maskCards b) (maskCards d) dd ≠ [] := by
      rw [← List.length_pos_iff, boards_length h.wf hdd, ← boards_length h.wf hd0]
      exact List.length_pos_of_mem hy
    exact List.exists_mem_of_ne_nil _ this
  choose! any hany using hany
  obtain ⟨r, sent, flag, r0, hist, ds, h1, h2, h3, h4⟩ := exists_track sqrt target h.wf h.boardMask h.deadMask h.ok nT cancelled (x := x)
    (fun t => (hmem _).1 (hx t)) (mv := mv) (fun t => (mem_moveLists.1 (hmv t)).1) (fun t => (mem_moveLists.1 (hmv t)).2)
    (fun t i dd => match (Bt t)[i]? with
      | none => any dd
      | some y => if y.1 = dd then y.2 else any dd) (by
      intro t i dd hdd
      split
      · exact hany dd hdd
      · rename_i y hy
        split
        · rename_i hyd
          rw [← hyd]
          exact hbd t y (List.mem_of_getElem? hy)
        · exact hany dd hdd)
  refine ⟨r, sent, h1, h2, ?_⟩
  have := h4.reports
  convert this using 1
  rw [List.flatMap_def]
  congr 1
  refine List.ext_getElem (by rw [List.length_map, List.length_range, hn]) fun t ht ht' => ?_
  have htn : t < nT := by omega
  rw [List.getElem_map, List.getElem_range]
  have hb1 := hBt t htn
  rw [List.getElem?_eq_getElem ht] at hb1
  injection hb1 with hb1
  rw [hb1, (h3 t htn).2.2.2.2]
  have e' := e t
  unfold trackDeals at e'
  rw [← e']
  unfold withBoards
  refine List.ext_getElem (by rw [List.length_mapIdx, List.length_map]) fun i hi hi' => ?_
  rw [List.getElem_mapIdx, List.getElem_map]
  simp only [List.getElem?_eq_getElem hi, if_true]

/-! ## Means and variances -/

/-- C91: the number of batches: any legal first deal, any moves, any boards. -/
theorem C91_count (h : McReady ranges b d s) (hne : deals (specRanges ranges) (maskCards b ++ maskCards d) ≠ [])
    (hbd : ∀ dd ∈ deals (specRanges ranges) (maskCards b ++ maskCards d), boards (maskCards b) (maskCards d) dd ≠ []) :
    (batchSpace s b d).length = (deals (specRanges ranges) (maskCards b ++ maskCards d)).length *
      (s.combinedRanges.length ^ 4095 * boardCount ranges b d ^ 4096) := by
  have hB := h.balanced hne hbd
  unfold batchSpace
  have e : (moveLists s).length = s.combinedRanges.length ^ 4095 := by
    unfold moveLists
    rw [choices_length, List.map_replicate, List.prod_replicate, List.length_range]
  rw [hB.length_space, e, ← h.dealAt_perm.length_eq, List.length_map]

/-- C91: the mean of any sum over the showdowns of `K` batches is `4096 * K` times its mean over all deals and boards. -/
theorem C91_mean (h : McReady ranges b d s) (hne : deals (specRanges ranges) (maskCards b ++ maskCards d) ≠ [])
    (hbd : ∀ dd ∈ deals (specRanges ranges) (maskCards b ++ maskCards d), boards (maskCards b) (maskCards d) dd ≠ [])
    (K : Nat) (f : List WHand × List Nat → ℚ) :
    (mean (runSpace s b d K) fun sd => (sd.map f).sum) =
      4096 * K * mean (deals (specRanges ranges) (maskCards b ++ maskCards d)) fun dd => mean (boards (maskCards b) (maskCards d) dd) fun B => f (dd, B) := by
  have hB := h.balanced hne hbd
  unfold runSpace
  rw [batches_mean (by exact hB.space_ne)]
  unfold batchSpace
  rw [hB.space_mean]
  push_cast
  ring

/-- C91: its variance is at most `K` times: 4096 times the mean variance over the boards of a deal, and 4096 squared times the variance between the
deals. -/
theorem C91_variance (h : McReady ranges b d s) (hne : deals (specRanges ranges) (maskCards b ++ maskCards d) ≠ [])
    (hbd : ∀ dd ∈ deals (specRanges ranges) (maskCards b ++ maskCards d), boards (maskCards b) (maskCards d) dd ≠ [])
    (K : Nat) (f : List WHand × List Nat → ℚ) :
    let D := deals (specRanges ranges) (maskCards b ++ maskCards d)
    (variance (runSpace s b d K) fun sd => (sd.map f).sum) ≤
      K * (4096 * (mean D fun dd => variance (boards (maskCards b) (maskCards d) dd) fun B => f (dd, B)) +
        4096 ^ 2 * variance D fun dd => mean (boards (maskCards b) (maskCards d) dd) fun B => f (dd, B)) := by
  intro D
  have hB := h.balanced hne hbd
  unfold runSpace
  rw [batches_variance (by exact hB.space_ne)]
  refine mul_le_mul_of_nonneg_left ?_ (Nat.cast_nonneg _)
  have := hB.space_variance f
  push_cast at this
  exact this

theorem sum_map_sub {α : Type} (l : List α) (f g : α → ℚ) : (l.map fun x => f x - g x).sum = (l.map f).sum - (l.map g).sum := by
  simp only [sub_eq_add_neg]
  rw [List.sum_map_add]
  congr 1
  rw [← neg_one_mul, ← List.sum_map_mul_left]
  simp

theorem runSpace_mem (h : McReady ranges b d s) {sd : List (List WHand × List Nat)} {K : Nat} (hsd : sd ∈ runSpace s b d K) :
    sd.length = 4096 * K ∧ ∀ y ∈ sd, y.1 ∈ deals (specRanges ranges) (maskCards b ++ maskCards d) := by
  obtain ⟨batches, rfl, hB, rfl⟩ := mem_runSpace.1 hsd
  have key : ∀ B ∈ batches, B.length = 4096 ∧ ∀ y ∈ B, y.1 ∈ deals (specRanges ranges) (maskCards b ++ maskCards d) := by
    intro B hm
    obtain ⟨x, hx, mv, hmv, e, _⟩ := mem_batchSpace.1 (hB B hm)
    obtain ⟨hm1, hm2⟩ := mem_moveLists.1 hmv
    have hl := congrArg List.length e
    rw [List.length_map, trackDeals_length, hm1] at hl
    refine ⟨hl, fun y hy => ?_⟩
    have h1 : y.1 ∈ trackDeals s b d x mv := by rw [← e]; exact List.mem_map_of_mem hy
    unfold trackDeals at h1
    rw [visited_eq] at h1
    obtain ⟨z, hz1, hz2⟩ := List.mem_map.1 h1
    obtain ⟨k, hk, rfl⟩ := List.mem_map.1 hz1
    rw [← hz2]
    refine h.dealAt_perm.mem_iff.1 (List.mem_map_of_mem ?_)
    exact (h.idxAfter_perm (mv.take k) fun i hi => hm2 i (List.mem_of_mem_take hi)).mem_iff.1 (List.mem_map_of_mem hx)
  refine ⟨length_flatten_const fun B hm => (key B hm).1, fun y hy => ?_⟩
  obtain ⟨B, hm, hy⟩ := List.mem_flatten.1 hy
  exact (key B hm).2 y hy

/-- C91: with equal weights the mean of the equity is the exact one. -/
theorem C91_unbiased (h : McReady ranges b d s) (hbd : ∀ dd ∈ deals (specRanges ranges) (maskCards b ++ maskCards d), boards (maskCards b) (maskCards d) dd ≠ [])
    {K : Nat} (hK : 0 < K) {w : Nat} (hw : ∀ dd ∈ deals (specRanges ranges) (maskCards b ++ maskCards d), Spec.dealWeight dd = w)
    {e : ℚ} {p : Nat} (he : equityOf (specRanges ranges) (maskCards b) (maskCards d) p = some e) :
    (mean (runSpace s b d K) fun sd => equityIn sd p) = e := by
  obtain ⟨hpos, hex⟩ := exact_mean h.wf hbd he
  have hD0 : deals (specRanges ranges) (maskCards b ++ maskCards d) ≠ [] := by
    intro e0
    rw [e0] at hpos
    exact absurd hpos (lt_irrefl 0)
  have hlD : (0 : ℚ) < (deals (specRanges ranges) (maskCards b ++ maskCards d)).length := by exact_mod_cast List.length_pos_iff.2 hD0
  have hsum : ((deals (specRanges ranges) (maskCards b ++ maskCards d)).map Spec.dealWeight).sum =
      (deals (specRanges ranges) (maskCards b ++ maskCards d)).length * w := by
    rw [List.map_congr_left hw, List.map_const', List.sum_replicate, smul_eq_mul]
  have hw0 : 0 < w := by
    rw [hsum] at hpos
    exact Nat.pos_of_mul_pos_left hpos
  have hwq : (0 : ℚ) < w := by exact_mod_cast hw0
  have hKq : (0 : ℚ) < K := by exact_mod_cast hK
  have e1 : ∀ sd ∈ runSpace s b d K, equityIn sd p = ((4096 * K * w : Nat) : ℚ)⁻¹ * (sd.map (winning p)).sum := by
    intro sd hsd
    obtain ⟨hl, hm⟩ := runSpace_mem h hsd
    unfold equityIn totalWeight
    rw [List.map_congr_left (g := fun _ => w) (fun y hy => hw _ (hm y hy)), List.map_const', List.sum_replicate, hl, smul_eq_mul, div_eq_inv_mul]
  rw [mean_congr e1, mean_mul, C91_mean h hD0 hbd, hex, hsum]
  have e2 : (mean (deals (specRanges ranges) (maskCards b ++ maskCards d)) fun dd => mean (boards (maskCards b) (maskCards d) dd) fun B => winning p (dd, B)) =
      ((deals (specRanges ranges) (maskCards b ++ maskCards d)).map fun dd => (Spec.dealWeight dd : ℚ) * dealEquity (maskCards b) (maskCards d) p dd).sum /
        (deals (specRanges ranges) (maskCards b ++ maskCards d)).length := by
    conv_lhs => rw [mean]
    congr 2
    apply List.map_congr_left
    intro dd _
    unfold dealEquity
    rw [← mean_mul]
    exact mean_congr fun B _ => winning_eq _ _
  rw [e2]
  push_cast
  field_simp

/-- C91: how many results are off by `ε` or more, for any ranges: `V` is the mean variance over the boards and `U` that between the deals, both weighted;
`wmin` is the least weight of a deal. -/
theorem C91_accuracy (h : McReady ranges b d s)
    (hbd : ∀ dd ∈ deals (specRanges ranges) (maskCards b ++ maskCards d), boards (maskCards b) (maskCards d) dd ≠ [])
    {K : Nat} (hK : 0 < K) {wmin : Nat} (hw0 : 0 < wmin) (hw : ∀ dd ∈ deals (specRanges ranges) (maskCards b ++ maskCards d), wmin ≤ Spec.dealWeight dd)
    {e : ℚ} {p : Nat} (he : equityOf (specRanges ranges) (maskCards b) (maskCards d) p = some e) {ε : ℚ} (hε : 0 < ε) :
    let D := deals (specRanges ranges) (maskCards b ++ maskCards d)
    let V := mean D fun dd => (Spec.dealWeight dd : ℚ) ^ 2 * dealVariance (maskCards b) (maskCards d) p dd
    let U := mean D fun dd => (Spec.dealWeight dd : ℚ) ^ 2 * (dealEquity (maskCards b) (maskCards d) p dd - e) ^ 2
    ((runSpace s b d K).countP (fun sd => decide (ε ≤ |equityIn sd p - e|)) : ℚ) ≤
      (runSpace s b d K).length * ((V / 4096 + U) / (K * ε ^ 2 * wmin ^ 2)) := by
  intro D V U
  obtain ⟨hpos, hex⟩ := exact_mean h.wf hbd he
  have hD0 : D ≠ [] := by
    intro e0
    rw [show deals (specRanges ranges) (maskCards b ++ maskCards d) = [] from e0] at hpos
    exact absurd hpos (lt_irrefl 0)
  have hwq : (0 : ℚ) < wmin := by exact_mod_cast hw0
  have hKq : (0 : ℚ) < K := by exact_mod_cast hK
  set f : List WHand × List Nat → ℚ := fun y => winning p y - e * (Spec.dealWeight y.1 : ℚ) with hf
  have hfe : ∀ y, f y = (Spec.dealWeight y.1 : ℚ) * (potShare p y - e) := fun y => by simp only [hf]; rw [winning_eq]; ring
  have hmean : ∀ dd ∈ D, (mean (boards (maskCards b) (maskCards d) dd) fun B => f (dd, B)) =
      (Spec.dealWeight dd : ℚ) * (dealEquity (maskCards b) (maskCards d) p dd - e) := by
    intro dd hdd
    simp only [hfe]
    rw [mean_mul]
    unfold dealEquity
    simp only [sub_eq_add_neg]
    rw [mean_add, mean_const (hbd dd hdd)]
  have hvar : ∀ dd ∈ D, (variance (boards (maskCards b) (maskCards d) dd) fun B => f (dd, B)) =
      (Spec.dealWeight dd : ℚ) ^ 2 * dealVariance (maskCards b) (maskCards d) p dd := by
    intro dd hdd
    simp only [hfe]
    rw [variance_mul]
    congr 1
    unfold dealVariance variance
    refine mean_congr fun B _ => ?_
    congr 1
    simp only [sub_eq_add_neg]
    rw [mean_add, mean_const (hbd dd hdd)]
    ring
  have hzero : (mean D fun dd => mean (boards (maskCards b) (maskCards d) dd) fun B => f (dd, B)) = 0 := by
    rw [mean_congr hmean, mean, div_eq_zero_iff]
    left
    have hW : (((D.map Spec.dealWeight).sum : Nat) : ℚ) ≠ 0 := by exact_mod_cast hpos.ne'
    have e1 : (D.map fun dd => (Spec.dealWeight dd : ℚ) * dealEquity (maskCards b) (maskCards d) p dd).sum = e * ((D.map Spec.dealWeight).sum : Nat) := by
      rw [hex, div_mul_cancel₀ _ hW]
    have e2 : (D.map fun dd => (Spec.dealWeight dd : ℚ) * (dealEquity (maskCards b) (maskCards d) p dd - e)).sum =
        (D.map fun dd => (Spec.dealWeight dd : ℚ) * dealEquity (maskCards b) (maskCards d) p dd).sum - e * ((D.map Spec.dealWeight).sum : Nat) := by
      rw [Nat.cast_list_sum, List.map_map, ← List.sum_map_mul_left, ← sum_map_sub]
      congr 1
      apply List.map_congr_left
      intro dd _
      show _ = _ - e * (Spec.dealWeight dd : ℚ)
      ring
    rw [e2, e1, sub_self]
  have hm := C91_mean h hD0 hbd K f
  rw [hzero, mul_zero] at hm
  have hv := C91_variance h hD0 hbd K f
  simp only at hv
  have hU : (variance D fun dd => mean (boards (maskCards b) (maskCards d) dd) fun B => f (dd, B)) = U := by
    unfold variance
    rw [hzero]
    refine mean_congr fun dd hdd => ?_
    simp only [hmean dd hdd]
    ring
  rw [hU, mean_congr hvar] at hv
  have hc := chebyshev (runSpace s b d K) (fun sd => (sd.map f).sum) (ε := ε * (4096 * K * wmin)) (by positivity)
  rw [hm] at hc
  simp only [sub_zero] at hc
  have hle : (runSpace s b d K).countP (fun sd => decide (ε ≤ |equityIn sd p - e|)) ≤
      (runSpace s b d K).countP fun sd => decide (ε * (4096 * K * wmin) ≤ |(sd.map f).sum|) := by
    apply List.countP_mono_left
    intro sd hsd hx
    have hx : ε ≤ |equityIn sd p - e| := by simpa using hx
    obtain ⟨hl, hmem⟩ := runSpace_mem h hsd
    have hWge : (4096 * K * wmin : ℚ) ≤ totalWeight sd := by
      have : sd.length * wmin ≤ totalWeight sd := by
        unfold totalWeight
        have := List.card_nsmul_le_sum (sd.map fun y => Spec.dealWeight y.1) wmin (fun z hz => by
          obtain ⟨y, hy, rfl⟩ := List.mem_map.1 hz
          exact hw _ (hmem y hy))
        rw [List.length_map, smul_eq_mul] at this
        exact this
      rw [hl] at this
      exact_mod_cast this
    have hWpos : (0 : ℚ) < totalWeight sd := lt_of_lt_of_le (by positivity) hWge
    have hs : (sd.map f).sum = (equityIn sd p - e) * totalWeight sd := by
      have : (sd.map f).sum = (sd.map (winning p)).sum - e * totalWeight sd := by
        unfold totalWeight
        rw [Nat.cast_list_sum, List.map_map, ← List.sum_map_mul_left, ← sum_map_sub]
        rfl
      rw [this]
      unfold equityIn
      field_simp
    simp only [decide_eq_true_eq]
    rw [hs, abs_mul, abs_of_pos hWpos]
    exact mul_le_mul hx hWge (by positivity) (abs_nonneg _)
  have hle' : ((runSpace s b d K).countP (fun sd => decide (ε ≤ |equityIn sd p - e|)) : ℚ) ≤
      ((runSpace s b d K).countP fun sd => decide (ε * (4096 * K * wmin) ≤ |(sd.map f).sum|) : Nat) := by exact_mod_cast hle
  have h1 : ((runSpace s b d K).countP (fun sd => decide (ε ≤ |equityIn sd p - e|)) : ℚ) * (ε * (4096 * K * wmin)) ^ 2 ≤
      (runSpace s b d K).length * (K * (4096 * V + 4096 ^ 2 * U)) :=
    (mul_le_mul_of_nonneg_right hle' (by positivity)).trans (hc.trans (mul_le_mul_of_nonneg_left hv (Nat.cast_nonneg _)))
  have hpp : (0 : ℚ) < (ε * (4096 * K * wmin)) ^ 2 := by positivity
  rw [← le_div_iff₀ hpp] at h1
  refine h1.trans (le_of_eq ?_)
  field_simp

/-- C91: whatever the ranges, at most one part in `4 * K * ε ^ 2` of the results of `K` batches is off by `ε` or more, times the square of the ratio
of the greatest and the least weight of a deal. -/
theorem C91_batches (h : McReady ranges b d s)
    (hbd : ∀ dd ∈ deals (specRanges ranges) (maskCards b ++ maskCards d), boards (maskCards b) (maskCards d) dd ≠ [])
    {K : Nat} (hK : 0 < K) {wmin wmax : Nat} (hw0 : 0 < wmin)
    (hw : ∀ dd ∈ deals (specRanges ranges) (maskCards b ++ maskCards d), wmin ≤ Spec.dealWeight dd ∧ Spec.dealWeight dd ≤ wmax)
    {e : ℚ} {p : Nat} (he : equityOf (specRanges ranges) (maskCards b) (maskCards d) p = some e) {ε : ℚ} (hε : 0 < ε) :
    ((runSpace s b d K).countP (fun sd => decide (ε ≤ |equityIn sd p - e|)) : ℚ) ≤
      (runSpace s b d K).length * (wmax ^ 2 / (4 * K * ε ^ 2 * wmin ^ 2)) := by
  have h1 := C91_accuracy h hbd hK hw0 (fun dd hdd => (hw dd hdd).1) he hε
  simp only at h1
  obtain ⟨hpos, hex⟩ := exact_mean h.wf hbd he
  set D := deals (specRanges ranges) (maskCards b ++ maskCards d) with hD
  have hwq : (0 : ℚ) < wmin := by exact_mod_cast hw0
  have hKq : (0 : ℚ) < K := by exact_mod_cast hK
  refine h1.trans (mul_le_mul_of_nonneg_left ?_ (Nat.cast_nonneg _))
  set V := mean D fun dd => (Spec.dealWeight dd : ℚ) ^ 2 * dealVariance (maskCards b) (maskCards d) p dd with hV
  set U := mean D fun dd => (Spec.dealWeight dd : ℚ) ^ 2 * (dealEquity (maskCards b) (maskCards d) p dd - e) ^ 2 with hU
  have hV0 : 0 ≤ V := mean_nonneg fun dd _ => mul_nonneg (sq_nonneg _) (variance_nonneg _ _)
  -- the mean of the weights
  have hVU : V + U ≤ wmax ^ 2 / 4 := by
    have hD0 : D ≠ [] := by
      intro e0
      rw [e0] at hpos
      exact absurd hpos (lt_irrefl 0)
    have hlD : (0 : ℚ) < D.length := by exact_mod_cast List.length_pos_iff.2 hD0
    have hW : (0 : ℚ) < ((D.map Spec.dealWeight).sum : Nat) := by exact_mod_cast hpos
    have e1 : V + U ≤ wmax * mean D fun dd => (Spec.dealWeight dd : ℚ) * ((1 - 2 * e) * dealEquity (maskCards b) (maskCards d) p dd + e ^ 2) := by
      rw [hV, hU, ← mean_add, ← mean_mul]
      refine mean_le fun dd hdd => ?_
      have g1 : dealVariance (maskCards b) (maskCards d) p dd ≤ dealEquity (maskCards b) (maskCards d) p dd * (1 - dealEquity (maskCards b) (maskCards d) p dd) :=
        variance_le (hbd dd hdd) fun B _ => potShare_range p (dd, B)
      have g2 : (0 : ℚ) ≤ Spec.dealWeight dd := Nat.cast_nonneg _
      have g3 : (Spec.dealWeight dd : ℚ) ≤ wmax := by exact_mod_cast (hw dd hdd).2
      have g4 : 0 ≤ dealVariance (maskCards b) (maskCards d) p dd := variance_nonneg _ _
      generalize dealEquity (maskCards b) (maskCards d) p dd = q at g1 ⊢
      generalize dealVariance (maskCards b) (maskCards d) p dd = v at g1 g4 ⊢
      generalize (Spec.dealWeight dd : ℚ) = w at g2 g3 ⊢
      have g5 : v + (q - e) ^ 2 ≤ (1 - 2 * e) * q + e ^ 2 := by nlinarith
      have g6 : 0 ≤ v + (q - e) ^ 2 := add_nonneg g4 (sq_nonneg _)
      calc w ^ 2 * v + w ^ 2 * (q - e) ^ 2 = w * (w * (v + (q - e) ^ 2)) := by ring
        _ ≤ wmax * (w * (v + (q - e) ^ 2)) := mul_le_mul_of_nonneg_right g3 (mul_nonneg g2 g6)
        _ ≤ wmax * (w * ((1 - 2 * e) * q + e ^ 2)) := mul_le_mul_of_nonneg_left (mul_le_mul_of_nonneg_left g5 g2) (Nat.cast_nonneg _)
    have e2 : (mean D fun dd => (Spec.dealWeight dd : ℚ) * ((1 - 2 * e) * dealEquity (maskCards b) (maskCards d) p dd + e ^ 2)) =
        ((D.map Spec.dealWeight).sum : Nat) / D.length * (e * (1 - e)) := by
      have e3 : (D.map fun dd => (Spec.dealWeight dd : ℚ) * dealEquity (maskCards b) (maskCards d) p dd).sum = e * ((D.map Spec.dealWeight).sum : Nat) := by
        rw [hex, div_mul_cancel₀ _ hW.ne']
      have e4 : (D.map fun dd => (Spec.dealWeight dd : ℚ) * ((1 - 2 * e) * dealEquity (maskCards b) (maskCards d) p dd + e ^ 2)).sum =
          (1 - 2 * e) * (e * ((D.map Spec.dealWeight).sum : Nat)) + e ^ 2 * ((D.map Spec.dealWeight).sum : Nat) := by
        rw [← e3, Nat.cast_list_sum, List.map_map, ← List.sum_map_mul_left, ← List.sum_map_mul_left, ← List.sum_map_add]
        congr 1
        apply List.map_congr_left
        intro dd _
        show _ = _ + e ^ 2 * (Spec.dealWeight dd : ℚ)
        ring
      rw [mean, e4]
      ring
    have e5 : (((D.map Spec.dealWeight).sum : Nat) : ℚ) / D.length ≤ wmax := by
      rw [div_le_iff₀ hlD]
      have := List.sum_le_card_nsmul (D.map Spec.dealWeight) wmax (fun z hz => by
        obtain ⟨dd, hdd, rfl⟩ := List.mem_map.1 hz
        exact (hw dd hdd).2)
      rw [List.length_map, smul_eq_mul, mul_comm] at this
      exact_mod_cast this
    have e6 : e * (1 - e) ≤ 1 / 4 := by nlinarith [sq_nonneg (e - 1 / 2)]
    have e7 : (0 : ℚ) ≤ ((D.map Spec.dealWeight).sum : Nat) / D.length := by positivity
    have e8 : (0 : ℚ) ≤ wmax := Nat.cast_nonneg _
    rw [e2] at e1
    refine e1.trans ?_
    calc (wmax : ℚ) * (((D.map Spec.dealWeight).sum : Nat) / D.length * (e * (1 - e))) ≤ wmax * (((D.map Spec.dealWeight).sum : Nat) / D.length * (1 / 4)) :=
          mul_le_mul_of_nonneg_left (mul_le_mul_of_nonneg_left e6 e7) e8
      _ ≤ wmax * (wmax * (1 / 4)) := mul_le_mul_of_nonneg_left (mul_le_mul_of_nonneg_right e5 (by norm_num)) e8
      _ = wmax ^ 2 / 4 := by ring
  have hpp : (0 : ℚ) < K * ε ^ 2 * wmin ^ 2 := by positivity
  rw [show (wmax : ℚ) ^ 2 / (4 * K * ε ^ 2 * wmin ^ 2) = (wmax ^ 2 / 4) / (K * ε ^ 2 * wmin ^ 2) by field_simp]
  refine div_le_div_of_nonneg_right ?_ hpp.le
  linarith

/-! ## Two random hands -/

/-- What a permuted player wins. -/
theorem winning_permute {σ τ : Nat → Nat} {rs : List (List WHand)} (h : PermOn rs.length σ τ) (board dead : List Nat) {p : Nat}
    (hp : p < rs.length) : ((showdowns (permute [] σ rs) board dead).map (winning p)).sum = ((showdowns rs board dead).map (winning (σ p))).sum := by
  rw [((showdowns_permute h board dead).map _).sum_eq, List.map_map]
  congr 1
  apply List.map_congr_left
  intro x hx
  have hl := showdowns_len hx
  have h' : PermOn x.1.length σ τ := by rw [hl]; exact h
  simp only [Function.comp_apply]
  unfold winning
  rw [dealWeight_permute h', winners_length_permute h']
  exact if_congr (mem_winners_permute h' _ (by rw [hl]; exact hp)) rfl rfl

/-- The players win the whole pot of a showdown. -/
theorem winning_all {x : List WHand × List Nat} (h : 0 < x.1.length) : ∑ p ∈ Finset.range x.1.length, winning p x = Spec.dealWeight x.1 := by
  unfold winning
  have hne := winners_ne_nil (B := x.2) h
  have h0 : ((winners x.2 x.1).length : ℚ) ≠ 0 := by exact_mod_cast (List.length_pos_iff.2 hne).ne'
  rw [← Finset.sum_filter, Finset.sum_const, nsmul_eq_mul]
  have : (Finset.range x.1.length).filter (fun p => p ∈ winners x.2 x.1) = (winners x.2 x.1).toFinset := by
    ext p
    rw [Finset.mem_filter, Finset.mem_range, List.mem_toFinset]
    exact ⟨fun h => h.2, fun h => ⟨winners_lt h, h⟩⟩
  rw [this, List.toFinset_card_of_nodup (winners_nodup _ _), mul_div_cancel₀ _ h0]

/-- If all players have the same range, the equity of each is `1 / n`. -/
theorem equal_equity {rs : List (List WHand)} {R : List WHand} (hR : ∀ x ∈ rs, x = R) {board dead : List Nat}
    (hpos : totalWeight (showdowns rs board dead) ≠ 0) {p : Nat} (hp : p < rs.length) : equityOf rs board dead p = some (1 / (rs.length : ℚ)) := by
  have hsame : ∀ q < rs.length, ((showdowns rs board dead).map (winning q)).sum = ((showdowns rs board dead).map (winning p)).sum := by
    intro q hq
    let σ : Nat → Nat := fun i => if i = p then q else if i = q then p else i
    have hσ : PermOn rs.length σ σ := by
      refine ⟨fun i hi => ?_, fun i hi => ?_, fun i hi => ?_, fun i hi => ?_⟩ <;> simp only [σ] <;> split_ifs <;> omega
    have hperm : permute [] σ rs = rs := by
      apply List.ext_getElem (permute_length _ _ _)
      intro i h1 h2
      show ((List.range rs.length).map fun i => rs.getD (σ i) [])[i]'(by simpa using h2) = _
      rw [List.getElem_map, List.getElem_range, List.getD_eq_getElem?_getD, List.getElem?_eq_getElem (hσ.lt i h2), Option.getD_some,
        hR _ (List.getElem_mem _), hR _ (List.getElem_mem _)]
    have := winning_permute hσ board dead hp
    rw [hperm] at this
    rw [this]
    simp [σ]
  have hsum : ∑ q ∈ Finset.range rs.length, ((showdowns rs board dead).map (winning q)).sum = totalWeight (showdowns rs board dead) := by
    unfold totalWeight
    have : ∀ sd : List (List WHand × List Nat), (∀ x ∈ sd, x.1.length = rs.length) →
        ∑ q ∈ Finset.range rs.length, (sd.map (winning q)).sum = (((sd.map fun x => Spec.dealWeight x.1).sum : Nat) : ℚ) := by
      intro sd
      induction sd with
      | nil => simp
      | cons x sd ih =>
        intro h
        have h1 := h x (by simp)
        have h2 := winning_all (x := x) (by omega)
        rw [h1] at h2
        simp only [List.map_cons, List.sum_cons, Nat.cast_add]
        rw [Finset.sum_add_distrib, h2, ih fun y hy => h y (by simp [hy])]
    exact this _ fun x hx => showdowns_len hx
  rw [Finset.sum_congr rfl fun q hq => hsame q (Finset.mem_range.1 hq), Finset.sum_const, Finset.card_range, nsmul_eq_mul] at hsum
  unfold equityOf
  have hn : (rs.length : ℚ) ≠ 0 := by exact_mod_cast (by omega : rs.length ≠ 0)
  have ht : (totalWeight (showdowns rs board dead) : ℚ) ≠ 0 := by exact_mod_cast hpos
  simp only [if_neg hpos, Option.some.injEq]
  rw [div_eq_div_iff ht hn]
  linarith

theorem random_deal : twosFours ∈ deals [allHands, allHands] [] := by
  have h := quads_deal
  unfold deals at h ⊢
  rw [List.mem_filter] at h ⊢
  exact ⟨h.1, by decide +kernel⟩

/-- The deals of two players with all hands: the weights are all the same. -/
theorem random_weight {dd : List WHand} (h : dd ∈ deals [allHands, allHands] []) : Spec.dealWeight dd = 10000 := by
  have h1 := (List.mem_filter.1 h).1
  have hw : ∀ x ∈ allHands, x.2.2 = 100 := by
    intro x hx
    obtain ⟨a, _, hx⟩ := List.mem_flatMap.1 hx
    obtain ⟨c, _, rfl⟩ := List.mem_map.1 hx
    rfl
  generalize allHands = A at *
  simp only [choices, List.mem_flatMap, List.mem_map, List.mem_singleton] at h1
  obtain ⟨x, hx, l, ⟨y, hy, l', rfl, rfl⟩, rfl⟩ := h1
  simp [Spec.dealWeight, hw x hx, hw y hy]

/-- C91: two random hands before the flop: `K` batches are within `ε` of one half, except for one part in `4 * K * ε ^ 2` of the results at most. -/
theorem C91_random {K : Nat} (hK : 0 < K) {ε : ℚ} (hε : 0 < ε) :
    (∃ s, McReady [addAll, addAll] 0 0 s) ∧ ∀ s, McReady [addAll, addAll] 0 0 s →
      (mean (runSpace s 0 0 K) fun sd => equityIn sd 0) = 1 / 2 ∧
      ((runSpace s 0 0 K).countP (fun sd => decide (ε ≤ |equityIn sd 0 - 1 / 2|)) : ℚ) ≤ (runSpace s 0 0 K).length / (4 * K * ε ^ 2) := by
  obtain ⟨ranges, hr⟩ : ∃ ranges, ranges = [addAll, addAll] := ⟨_, rfl⟩
  have hs : specRanges ranges = [allHands, allHands] := by rw [hr]; exact all_spec
  have hwf : ∀ r ∈ ranges, WfRange r := by
    rw [hr]; intro r hr'
    rcases List.mem_cons.1 hr' with hr' | hr'
    · rw [hr']; exact all_wf
    · rw [List.mem_singleton.1 hr']; exact all_wf
  have hl : ranges.length = 2 := by rw [hr]; rfl
  have hz : maskCards 0 = [] := by decide +kernel
  have hv : validate ranges.length 0 0 = none := by rw [hl]; decide +kernel
  rw [← hr]
  clear hr
  have hdeal : twosFours ∈ deals (specRanges ranges) (maskCards 0 ++ maskCards 0) := by rw [hs, hz]; exact random_deal
  have hbd : ∀ dd ∈ deals (specRanges ranges) (maskCards 0 ++ maskCards 0), boards (maskCards 0) (maskCards 0) dd ≠ [] := by
    intro dd hdd
    rw [← List.length_pos_iff, boards_length hwf hdd, hl, hz]
    decide +kernel
  have hw : ∀ dd ∈ deals (specRanges ranges) (maskCards 0 ++ maskCards 0), Spec.dealWeight dd = 10000 := by
    rw [hs, hz]
    exact fun dd => random_weight
  have he : equityOf (specRanges ranges) (maskCards 0) (maskCards 0) 0 = some (1 / 2) := by
    have hpos : totalWeight (showdowns (specRanges ranges) (maskCards 0) (maskCards 0)) ≠ 0 := by
      obtain ⟨B, hB⟩ := List.exists_mem_of_ne_nil _ (hbd _ hdeal)
      refine (totalWeight_pos (x := (twosFours, B)) ?_ (show 0 < Spec.dealWeight twosFours by decide)).ne'
      exact List.mem_flatMap.2 ⟨twosFours, hdeal, List.mem_map.2 ⟨B, hB, rfl⟩⟩
    rw [hs] at hpos ⊢
    have := equal_equity (R := allHands) (by simp) hpos (p := 0) (by simp)
    rw [this]
    norm_num
  refine ⟨?_, fun s h => ⟨C91_unbiased h hbd hK hw he, ?_⟩⟩
  · obtain ⟨s0, h0⟩ := prepare_of_deal hwf zero_deck zero_deck hv (List.ne_nil_of_mem hdeal)
    obtain ⟨s, h⟩ := C39_approx_ok h0
    exact ⟨s, hwf, zero_deck, zero_deck, h⟩
  · have := C91_batches h hbd hK (wmin := 10000) (wmax := 10000) (by decide) (fun dd hdd => by rw [hw dd hdd]; exact ⟨le_rfl, le_rfl⟩) he hε
    refine this.trans (le_of_eq ?_)
    have hKq : (K : ℚ) ≠ 0 := by exact_mod_cast hK.ne'
    push_cast
    field_simp

/-- With 2500 batches (ten million evaluations) at most one result in a hundred is off by a tenth. -/
example {s : Sim} (h : McReady [addAll, addAll] 0 0 s) :
    100 * (runSpace s 0 0 2500).countP (fun sd => decide (1 / 10 ≤ |equityIn sd 0 - 1 / 2|)) ≤ (runSpace s 0 0 2500).length := by
  have := ((C91_random (K := 2500) (by decide) (ε := 1 / 10) (by norm_num)).2 s h).2
  norm_num at this
  have h2 : (100 : ℚ) * (runSpace s 0 0 2500).countP (fun sd => decide (1 / 10 ≤ |equityIn sd 0 - 1 / 2|)) ≤ (runSpace s 0 0 2500).length := by
    norm_num
    linarith
  exact_mod_cast h2

end Pokers
