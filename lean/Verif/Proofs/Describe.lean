import Verif.Proofs.Ranks
import Verif.Proofs.Sent
/-!
# The complete record of a hand after a run
-/
namespace Pokers
open Spec CombinedRange

/-- The progress values of a run. -/
theorem exact_sent {ranges : List (List Combo)} {b d nT : Nat} {cancelled stopped : Bool} {r : Results} {sent : List Nat}
    (hwf : ∀ r ∈ ranges, WfRange r) (hb : CardMask b) (hd : CardMask d) (hT : 0 < nT)
    (h : ExactEquity ranges b d nT cancelled stopped (.ok r) sent) :
    sent.Pairwise (· ≤ ·) ∧ (∀ x ∈ sent, x ≤ 100) ∧ sent ≠ [] ∧ (stopped = false → sent.getLast? = some 100) := by
  unfold ExactEquity at h
  split at h
  · exact absurd h.1 (by simp)
  · rename_i s hok
    obtain ⟨r0, flag, ds, total, size, w, h1, h2, h3, h4, h5, h6, h7, h8, h9⟩ := h
    have hr : Ready ranges b d s ds total size := ⟨hwf, hb, hd, hok, h2, h3, h4⟩
    have hS := SentInv.steps hr.processes hr.size_pos hr.total_pos h5
    obtain ⟨_, _, _, _, hI⟩ := Inv.steps hr.processes hr.size_pos h5
    rw [h8, h9]
    refine ⟨hS.sorted, fun x hx => (hS.le x hx).trans ?_, hS.done 0 hT (h6 0 hT), hS.last 0 hT (h6 0 hT)⟩
    rw [← progressExact_full hr.total_pos]
    exact progressExact_mono hI.le

/-- The fields of a record that describe the hand. -/
structure HandInfo where
  weight : Nat
  rank : Nat
  draw : Nat
  valid : Bool
deriving DecidableEq

/-- The description in a record. -/
def infoOf (u : UnitResults) : HandInfo := ⟨u.weight, u.rank, u.draw, u.valid⟩

/-- A record with the given counts and description, before the rates are computed. -/
def unitOf (c : Cell) (i : HandInfo) : UnitResults :=
  { wins := c.1, ties := c.2.1, total := c.2.2.1, correctedTies := c.2.2.2, equity := fdiv ((c.1 : ℚ) + c.2.2.2) (c.2.2.1 : ℚ),
    winrate := some 0, tierate := some 0, weight := i.weight, rank := i.rank, draw := i.draw, valid := i.valid }

/-- After at least one flush the equity of every hand is that of its counts. -/
theorem applyFlushes_unit {sqrt : ℚ → ℚ} {n : Nat} {ex : Bool} {hist : List (Batch × HandStats)} {r0 : Results}
    (h0 : ∀ k, Blank (r0.handResults k)) (hids : ∀ x ∈ hist, IdPlayers n x.1) (hne : hist ≠ []) :
    ∀ k < NUM_HANDS * n, (applyFlushes sqrt n ex hist r0).handResults k =
      unitOf (cellOf ((applyFlushes sqrt n ex hist r0).handResults k)) (infoOf (r0.handResults k)) := by
  have step : ∀ (u o : UnitResults) (i : HandInfo), u.winrate = some 0 → u.tierate = some 0 → infoOf u = i →
      u.addAssign o = unitOf (cellOf (u.addAssign o)) i := by
    rintro u o i h1 h2 rfl
    unfold UnitResults.addAssign unitOf cellOf infoOf
    simp only [h1, h2]
  cases hist with
  | nil => exact absurd rfl hne
  | cons x xs =>
    show ∀ k < NUM_HANDS * n, (applyFlushes sqrt n ex xs (updateResults sqrt n ex x.1 x.2 r0)).handResults k = unitOf
      (cellOf ((applyFlushes sqrt n ex xs (updateResults sqrt n ex x.1 x.2 r0)).handResults k)) _
    apply applyFlushes_ind (P := fun r => ∀ k < NUM_HANDS * n, r.handResults k =
      unitOf (cellOf (r.handResults k)) (infoOf (r0.handResults k))) sqrt n ex xs _ ?_ (fun y hy => hids y (by simp [hy]))
    · intro y _ r hP hm k hk
      rw [hm.cells k hk]
      have := hP k hk
      apply step
      · rw [this]; rfl
      · rw [this]; rfl
      · rw [this]; rfl
    · intro k hk
      rw [(updateResults_merged sqrt n ex x.1 x.2 r0 (hids x (by simp))).cells k hk]
      have := h0 k
      unfold Blank at this
      apply step
      · rw [this]; rfl
      · rw [this]; rfl
      · rfl

/-- The hand results at the end. -/
theorem finishResults_hand (s : Sim) (flag : Nat) (r : Results) {k : Nat} (hk : k < NUM_HANDS * s.nPlayers) :
    (finishResults s flag r).handResults k = finalUnit (fixHandWeights s.handRanges flag r.handResults k) := by
  have h := congrFun (generateFinalData_eq s.nPlayers
    (getEquity s.nPlayers { r with handResults := fixHandWeights s.handRanges flag r.handResults })).1 k
  rw [if_pos (by rw [Nat.mul_comm]; exact hk)] at h
  unfold finishResults
  simp only
  split
  · exact h
  · exact h

/-- No two hands of the range are the same pair of cards. -/
def DistinctHands (r : List Combo) : Prop :=
  r.Pairwise fun c d => ¬ ((c.c1 = d.c1 ∧ c.c2 = d.c2) ∨ (c.c1 = d.c2 ∧ c.c2 = d.c1))

theorem filter_key {r : List Combo} (hr : WfRange r) (hd : DistinctHands r) {p : Nat} {c : Combo} (hc : c ∈ r) :
    r.filter (fun c' => rowKey p c' = rowKey p c) = [c] := by
  induction r with
  | nil => simp at hc
  | cons a r ih =>
    have hd' := List.pairwise_cons.1 hd
    have hwc := hr c hc
    rw [List.filter_cons]
    rcases List.mem_cons.1 hc with rfl | hc'
    · simp only [decide_true, if_true]
      congr 1
      rw [List.filter_eq_nil_iff]
      intro x hx
      rw [decide_eq_true_iff]
      intro he
      have := (rowKey_eq hwc.1 hwc.2.1 hwc.2.2 (hr x (by simp [hx]))).1 he
      apply hd'.1 x hx
      rcases this with ⟨h1, h2⟩ | ⟨h1, h2⟩
      · exact Or.inl ⟨h1.symm, h2.symm⟩
      · exact Or.inr ⟨h2.symm, h1.symm⟩
    · have hne : rowKey p a ≠ rowKey p c := fun he =>
        hd'.1 c hc' ((rowKey_eq hwc.1 hwc.2.1 hwc.2.2 (hr a (by simp))).1 he)
      simp only [hne, decide_false, Bool.false_eq_true, if_false]
      exact ih (fun x hx => hr x (by simp [hx])) hd'.2 hc'

/-- Weight and validity: what a cell holds after `save_hand_weights`, and after `fix_hand_weights`. -/
theorem weights_spec {ranges : List (List Combo)} (hwf : ∀ r ∈ ranges, WfRange r) (hdist : ∀ r ∈ ranges, DistinctHands r)
    (hr : Nat → UnitResults) {p : Nat} (hp : p < ranges.length) :
    let x := saveHandWeights ranges hr
    (∀ c ∈ ranges[p], x.1 (rowKey p c) = { hr (rowKey p c) with weight := if allFull ranges[p] then 1 else c.w, valid := true } ∧
      ∀ g : Nat → UnitResults, (g (rowKey p c)).valid = true → (g (rowKey p c)).weight = (x.1 (rowKey p c)).weight →
        fixHandWeights ranges x.2 g (rowKey p c) = { g (rowKey p c) with weight := c.w }) ∧
    (∀ k, InRow p k → (∀ c ∈ ranges[p], rowKey p c ≠ k) → x.1 k = hr k ∧ ∀ g, fixHandWeights ranges x.2 g k = g k) := by
  intro x
  have hx : x = _ := saveHandWeights_eq ranges hr
  have hx1 : ∀ k, x.1 k = ranges.zipIdx.foldl (fun u x => saveCell x.2 x.1 k u) (hr k) := fun k => by rw [hx]
  have hx2 : x.2.testBit p = allFull ranges[p] := by rw [hx]; exact flag_testBit ranges hp
  clear_value x
  have hwp := hwf _ (List.getElem_mem hp)
  have hdp := hdist _ (List.getElem_mem hp)
  have hrow : ∀ k, InRow p k → x.1 k = saveCell p ranges[p] k (hr k) := by
    intro k hk
    rw [hx1]
    apply rows_apply saveCell ranges hp
    intro i r u hr hi
    unfold saveCell
    rw [filter_row (hwf r hr) hk hi]
    simp
  have hfix : ∀ g k, InRow p k → fixHandWeights ranges x.2 g k = fixCell x.2 p ranges[p] k (g k) := by
    intro g k hk
    rw [fixHandWeights_eq]
    apply rows_apply (fixCell x.2) ranges hp
    intro i r u hr hi
    unfold fixCell
    rw [filter_row (hwf r hr) hk hi]
    simp
  refine ⟨fun c hc => ?_, fun k hk hno => ?_⟩
  · have hin := rowKey_inRow (p := p) (hwp c hc)
    have h1 : x.1 (rowKey p c) = { hr (rowKey p c) with weight := if allFull ranges[p] then 1 else c.w, valid := true } := by
      rw [hrow _ hin]
      unfold saveCell
      rw [filter_key hwp hdp hc]
      by_cases ha : allFull ranges[p] = true
      · simp only [ha, if_true, List.foldl_cons, List.foldl_nil, constWeight, putWeight]
      · simp only [ha, Bool.false_eq_true, if_false, List.foldl_cons, List.foldl_nil, putWeight]
    refine ⟨h1, fun g hg hgw => ?_⟩
    rw [hfix g _ hin]
    unfold fixCell
    rw [filter_key hwp hdp hc, hx2]
    by_cases ha : allFull ranges[p] = true
    · have hw : c.w = 100 := by
        have := List.all_eq_true.1 ha c hc
        simpa using this
      simp only [ha, if_true, List.foldl_cons, List.foldl_nil, constWeight, hg, hw]
    · rw [h1] at hgw
      simp only [ha, Bool.false_eq_true, if_false] at hgw
      simp only [ha, Bool.false_eq_true, if_false]
      rw [← hgw]
  · have hnil : ranges[p].filter (fun c => rowKey p c = k) = [] :=
      List.filter_eq_nil_iff.2 (fun c hc => by rw [decide_eq_true_iff]; exact hno c hc)
    constructor
    · rw [hrow k hk]
      unfold saveCell
      rw [hnil]
      simp
    · intro g
      rw [hfix g k hk]
      unfold fixCell
      rw [hnil]
      simp

section
variable {ranges : List (List Combo)} {b d nT : Nat} {stopped : Bool} {r : Results} {s : Sim} {ds : List DividerU64}
    {total size flag : Nat} {r0 : Results} {hist : List (Batch × HandStats)} {D : Multiset Nat}

/-- The board and the hands of the filtered ranges have no card in common. -/
theorem filtered_board_hand (hwf : ∀ r ∈ ranges, WfRange r) (b d : Nat) :
    (∀ r ∈ ranges.map (fun h => removeConflictingCombos h b d), WfRange r) ∧
    ∀ r ∈ ranges.map (fun h => removeConflictingCombos h b d), ∀ c ∈ r, IsCards (maskCards b ++ [c.c1, c.c2]) := by
  have hw := wf_filter hwf b d
  refine ⟨hw, fun r hr c hc => ?_⟩
  have hwc := hw r hr c hc
  obtain ⟨r', hr', rfl⟩ := List.mem_map.1 hr
  rw [C23_filter] at hc
  have hc2 := (List.mem_filter.1 hc).2
  simp only [Bool.not_eq_true', Bool.or_eq_false_iff] at hc2
  have hmb := maskCards_isCards b
  have hnot : ∀ x, b.testBit x = false → x ∉ maskCards b := by
    intro x hx hm
    unfold maskCards at hm
    have := (List.mem_filter.1 hm).2
    rw [hx] at this
    cases this
  constructor
  · rw [List.nodup_append]
    refine ⟨hmb.1, by simp [hwc.2.2], ?_⟩
    intro x hx y hy hxy
    subst hxy
    simp only [List.mem_cons, List.not_mem_nil, or_false] at hy
    rcases hy with rfl | rfl
    · exact hnot _ hc2.1.1.1 hx
    · exact hnot _ hc2.1.1.2 hx
  · intro x hx
    rw [List.mem_append] at hx
    rcases hx with hx | hx
    · exact hmb.2 x hx
    · simp only [List.mem_cons, List.not_mem_nil, or_false] at hx
      rcases hx with rfl | rfl
      · exact hwc.1
      · exact hwc.2.1

theorem Ready.board_hand (h : Ready ranges b d s ds total size) :
    (∀ r ∈ s.handRanges, WfRange r) ∧ ∀ r ∈ s.handRanges, ∀ c ∈ r, IsCards (maskCards b ++ [c.c1, c.c2]) := by
  rw [h.fields.2.2.2.2.2.2.2.2.1]
  exact filtered_board_hand h.wf b d

/-- The preparations before the threads start do not panic. -/
theorem start_some_of (hwf : ∀ r ∈ ranges, WfRange r) {s : Sim} (hb : s.boardMask = b) (h5 : (maskCards b).length ≤ 5)
    (hr : s.handRanges = ranges.map fun h => removeConflictingCombos h b d) : ∃ r0 flag, startResults s = some (r0, flag) := by
  obtain ⟨hw, hok⟩ := filtered_board_hand hwf b d
  rw [← hr] at hw hok
  unfold startResults
  simp only
  rw [hb]
  split
  · obtain ⟨hr', h1, _⟩ := setRanks_spec hw h5 hok (saveHandWeights s.handRanges (Results.init s.nPlayers).handResults).1
    rw [h1]
    exact ⟨_, _, rfl⟩
  · exact ⟨_, _, rfl⟩

/-- The preparations before the threads start do not panic. -/
theorem Ready.start_some (h : Ready ranges b d s ds total size) : ∃ r0 flag, startResults s = some (r0, flag) :=
  start_some_of h.wf h.fields.2.1 h.fields.2.2.2.2.2.2.2.1 h.fields.2.2.2.2.2.2.2.2.1

/-- The current category of a hand (`255` before the flop). -/
def rankInfo (b : Nat) (c : Combo) : Nat :=
  if countOnes b > 2 then categoryOfScore (ofCards (maskCards b ++ [c.c1, c.c2])).evaluate else 255

/-- The draw flags of a hand (none before the flop). -/
def drawInfo (b : Nat) (c : Combo) : Nat := if countOnes b > 2 then drawOf (maskCards b) c.c1 c.c2 else 0

/-- What the results returned by a calculation are made of: the starting results, the flushes of the threads and the final
steps.  Both `exact_equity` and `approx_equity` return such results. -/
structure Calc (sqrt : ℚ → ℚ) (ex : Bool) (ranges : List (List Combo)) (b d : Nat) (r : Results) (s : Sim) (flag : Nat)
    (r0 : Results) (hist : List (Batch × HandStats)) (sd : List (List WHand × List Nat)) : Prop where
  wf : ∀ r ∈ ranges, WfRange r
  boardDeck : CardMask b
  deadDeck : CardMask d
  players : s.nPlayers = ranges.length
  boardMask : s.boardMask = b
  many : 2 ≤ ranges.length
  few : ranges.length ≤ 9
  board : (maskCards b).length ≤ 5
  hands : s.handRanges = ranges.map fun h => removeConflictingCombos h b d
  start : startResults s = some (r0, flag)
  final : r = finishResults s flag (applyFlushes sqrt s.nPlayers ex hist r0)
  ids : ∀ x ∈ hist, IdPlayers s.nPlayers x.1
  counts : CountsOf ranges.length r sd
  legal : ∀ x ∈ sd, x.1 ∈ Spec.deals (specRanges ranges) (maskCards b ++ maskCards d)
  batches : ∀ x ∈ hist, ∃ sd' : List (List WHand × List Nat),
    (∀ y ∈ sd', y ∈ showdowns (specRanges ranges) (maskCards b) (maskCards d)) ∧
    ∀ i < 2 ^ ranges.length, x.1.winsByMask i = weightOf sd' fun y => u8Mask (winners y.2 y.1) = i

variable {sqrt : ℚ → ℚ} {ex : Bool} {sd : List (List WHand × List Nat)}

theorem Calc.board_hand (h : Calc sqrt ex ranges b d r s flag r0 hist sd) :
    (∀ r ∈ s.handRanges, WfRange r) ∧ ∀ r ∈ s.handRanges, ∀ c ∈ r, IsCards (maskCards b ++ [c.c1, c.c2]) := by
  rw [h.hands]
  exact filtered_board_hand h.wf b d

theorem dealShows_wf (hwf : ∀ r ∈ ranges, WfRange r) {board dead : List Nat} {dls : List (List WHand)}
    (hsub : dls.Subperm (deals (specRanges ranges) (board ++ dead))) :
    ∀ x ∈ dls.flatMap (dealShows board dead), WfDeal x.1 ∧ x.1.length = ranges.length := by
  intro x hx
  obtain ⟨dd, hdd, hx⟩ := List.mem_flatMap.1 hx
  obtain ⟨B, _, rfl⟩ := List.mem_map.1 hx
  have := deals_wf hwf (hsub.subset hdd)
  exact ⟨this.2.1, this.1⟩

theorem Calc.deals (h : Calc sqrt ex ranges b d r s flag r0 hist sd) : ∀ x ∈ sd, WfDeal x.1 ∧ x.1.length = ranges.length := by
  intro x hx
  have := deals_wf h.wf (h.legal x hx)
  exact ⟨this.2.1, this.1⟩

/-- Every batch contains the weights of some legal showdowns. -/
theorem Run.batch_shows (h : Run ranges b d nT stopped r s ds total size flag r0 hist D) {x : Batch × HandStats} (hx : x ∈ hist) :
    ∃ sd' : List (List WHand × List Nat), (∀ y ∈ sd', y ∈ showdowns (specRanges ranges) (maskCards b) (maskCards d)) ∧
      ∀ i < 2 ^ ranges.length, x.1.winsByMask i = weightOf sd' fun y => u8Mask (winners y.2 y.1) = i := by
  obtain ⟨h1, h2, h3, _⟩ := h.ready.fields
  obtain ⟨D', hD, he⟩ := h.batches x hx
  obtain ⟨L, rfl⟩ := Quot.exists_rep D'
  have hsum := sumOf_posFull s ds L
  rw [posShows_flatMap, h2, h3] at hsum
  refine ⟨(L.filterMap (posDeal s ds)).flatMap (dealShows (maskCards b) (maskCards d)), ?_, fun i hi => ?_⟩
  · intro y hy
    rw [showdowns_eq]
    obtain ⟨dd, hdd, hy⟩ := List.mem_flatMap.1 hy
    refine List.mem_flatMap.2 ⟨dd, ?_, hy⟩
    refine (posDeals h.ready).subset ?_
    obtain ⟨k, hk, e⟩ := List.mem_filterMap.1 hdd
    refine List.mem_filterMap.2 ⟨k, ?_, e⟩
    have : k ∈ Multiset.range total := Multiset.subset_of_le (hD.trans h.sub) hk
    exact List.mem_range.2 (Multiset.mem_range.1 this)
  · rw [← sdTally_mask]
    have e := congrFun (congrArg Prod.fst ((congrArg Prod.fst he).trans hsum)) i
    rw [← h1] at hi
    exact ((cut_apply x.1.winsByMask hi).symm.trans e).trans (cut_apply _ hi)

/-- A run of the exact calculation is such a calculation. -/
theorem Run.calc (h : Run ranges b d nT stopped r s ds total size flag r0 hist D) :
    ∃ dls : List (List WHand), dls.Subperm (Spec.deals (specRanges ranges) (maskCards b ++ maskCards d)) ∧
      Calc id s.calcExact ranges b d r s flag r0 hist (dls.flatMap (dealShows (maskCards b) (maskCards d))) := by
  obtain ⟨dls, hsub, hc, _⟩ := h.counts
  obtain ⟨h1, h2, _, _, _, h6, h7, h8, h9, _⟩ := h.ready.fields
  refine ⟨dls, hsub, h.ready.wf, h.ready.boardMask, h.ready.deadMask, h1, h2, h6, h7, h8, h9, h.start, h.final, h.ids, hc, ?_,
    fun x hx => h.batch_shows hx⟩
  intro x hx
  obtain ⟨dd, hdd, hx⟩ := List.mem_flatMap.1 hx
  obtain ⟨B, _, rfl⟩ := List.mem_map.1 hx
  exact hsub.subset hdd

theorem exact_calc {cancelled : Bool} {sent : List Nat} (hwf : ∀ r ∈ ranges, WfRange r) (hb : CardMask b) (hd : CardMask d)
    (h : ExactEquity ranges b d nT cancelled stopped (.ok r) sent) :
    ∃ (s : Sim) (flag : Nat) (r0 : Results) (hist : List (Batch × HandStats)) (dls : List (List WHand)),
      dls.Subperm (Spec.deals (specRanges ranges) (maskCards b ++ maskCards d)) ∧ sent.length = hist.length ∧
      Calc id s.calcExact ranges b d r s flag r0 hist (dls.flatMap (dealShows (maskCards b) (maskCards d))) := by
  obtain ⟨s, ds, total, size, flag, r0, hist, D, hrun, hlen⟩ := exact_run hwf hb hd h
  obtain ⟨dls, hsub, hc⟩ := hrun.calc
  exact ⟨s, flag, r0, hist, dls, hsub, hlen, hc⟩

/-- The description of the hands at the start. -/
theorem Calc.start_info (h : Calc sqrt ex ranges b d r s flag r0 hist sd) (hdist : ∀ r ∈ s.handRanges, DistinctHands r)
    {p : Nat} (hp : p < s.handRanges.length) :
    (∀ c ∈ s.handRanges[p], infoOf (r0.handResults (rowKey p c)) =
        ⟨if allFull s.handRanges[p] then 1 else c.w, rankInfo b c, drawInfo b c, true⟩ ∧
      ∀ g : Nat → UnitResults, infoOf (g (rowKey p c)) = infoOf (r0.handResults (rowKey p c)) →
        fixHandWeights s.handRanges flag g (rowKey p c) = { g (rowKey p c) with weight := c.w }) ∧
    (∀ k, InRow p k → (∀ c ∈ s.handRanges[p], rowKey p c ≠ k) → infoOf (r0.handResults k) = ⟨0, 255, 0, false⟩ ∧
      ∀ g, fixHandWeights s.handRanges flag g k = g k) := by
  obtain ⟨hw, hok⟩ := h.board_hand
  have hs := h.start
  have hb := h.boardMask
  have hW := weights_spec hw hdist (Results.init s.nPlayers).handResults hp
  unfold startResults at hs
  simp only at hs
  rw [hb] at hs
  obtain ⟨hr, h1, h2⟩ := Option.map_eq_some_iff.1 hs
  obtain ⟨h3, h4⟩ := Prod.mk.inj h2
  subst h3 h4
  simp only at hW ⊢
  have hr1 : (∀ c ∈ s.handRanges[p], hr (rowKey p c) = { (saveHandWeights s.handRanges (Results.init s.nPlayers).handResults).1 (rowKey p c)
        with rank := rankInfo b c, draw := drawInfo b c }) ∧
      ∀ k, InRow p k → (∀ c ∈ s.handRanges[p], rowKey p c ≠ k) →
        hr k = (saveHandWeights s.handRanges (Results.init s.nPlayers).handResults).1 k := by
    unfold rankInfo drawInfo
    by_cases hc : countOnes b > 2
    · rw [if_pos hc] at h1
      obtain ⟨hr', h5, h6⟩ := setRanks_spec hw h.board hok (saveHandWeights s.handRanges (Results.init s.nPlayers).handResults).1
      rw [h1] at h5
      have := Option.some.inj h5
      subst this
      simp only [hc, if_true]
      exact h6 p hp
    · rw [if_neg hc] at h1
      have := Option.some.inj h1
      subst this
      simp only [hc, if_false]
      refine ⟨fun c hc => ?_, fun _ _ _ => trivial⟩
      rw [(hW.1 c hc).1]
      rfl
  refine ⟨fun c hc => ⟨?_, fun g hg => ?_⟩, fun k hk hno => ⟨?_, (hW.2 k hk hno).2⟩⟩
  · rw [hr1.1 c hc, (hW.1 c hc).1]
    rfl
  · have hgi := hg
    rw [hr1.1 c hc] at hgi
    refine (hW.1 c hc).2 g ?_ (congrArg HandInfo.weight hgi)
    have := congrArg HandInfo.valid hgi
    simp only [infoOf] at this
    rw [this, (hW.1 c hc).1]
  · rw [hr1.2 k hk hno, (hW.2 k hk hno).1]
    rfl

/-- The record of a hand of a range at the end, in terms of its counts. -/
def finalRecord (c : Cell) (i : HandInfo) : UnitResults :=
  { unitOf c i with
    equity := if c.2.2.1 = 0 then some 0 else fdiv ((c.1 : ℚ) + c.2.2.2) (c.2.2.1 : ℚ)
    winrate := if c.2.2.1 = 0 then some 0 else fdiv (c.1 : ℚ) (c.2.2.1 : ℚ)
    tierate := if c.2.2.1 = 0 then some 0 else fdiv (c.2.1 : ℚ) (c.2.2.1 : ℚ) }

theorem finalUnit_unitOf (c : Cell) (i : HandInfo) (hv : i.valid = true) : finalUnit (unitOf c i) = finalRecord c i := by
  unfold finalUnit finalRecord
  have : (unitOf c i).valid = true := hv
  rw [if_pos this]
  by_cases h0 : c.2.2.1 = 0
  · have : ¬ (unitOf c i).total > 0 := by show ¬ c.2.2.1 > 0; omega
    rw [if_neg this, if_pos h0, if_pos h0, if_pos h0]
    rfl
  · have : (unitOf c i).total > 0 := by show c.2.2.1 > 0; omega
    rw [if_pos this, if_neg h0, if_neg h0, if_neg h0]
    rfl

/-- The complete record of every hand after a run with at least one flush. -/
theorem Calc.record (h : Calc sqrt ex ranges b d r s flag r0 hist sd) (hne : hist ≠ [])
    (hdist : ∀ r ∈ s.handRanges, DistinctHands r) {p : Nat} (hp : p < s.handRanges.length) :
    (∀ c ∈ s.handRanges[p], r.handResults (rowKey p c) =
      finalRecord (cellOf (r.handResults (rowKey p c))) ⟨c.w, rankInfo b c, drawInfo b c, true⟩) ∧
    (∀ k, InRow p k → (∀ c ∈ s.handRanges[p], rowKey p c ≠ k) →
      r.handResults k = unitOf (cellOf (r.handResults k)) ⟨0, 255, 0, false⟩) := by
  have hn : s.handRanges.length = s.nPlayers := by
    rw [h.hands, h.players, List.length_map]
  have hI := h.start_info hdist hp
  have hU := applyFlushes_unit (sqrt := sqrt) (ex := ex) (startResults_counts h.start).2.2.2.2.2.2 h.ids hne
  have hlt : ∀ k, InRow p k → k < NUM_HANDS * s.nPlayers := by
    intro k hk
    have := hk.2
    have : NUM_HANDS * (p + 1) ≤ NUM_HANDS * s.nPlayers := Nat.mul_le_mul_left _ (by omega)
    rw [Nat.mul_add, Nat.mul_one] at this
    omega
  have hF : ∀ k, InRow p k → r.handResults k = finalUnit (fixHandWeights s.handRanges flag
      (applyFlushes sqrt s.nPlayers ex hist r0).handResults k) := by
    intro k hk
    rw [h.final]
    exact finishResults_hand s flag _ (hlt k hk)
  have hcell : ∀ k, cellOf (r.handResults k) = cellOf ((applyFlushes sqrt s.nPlayers ex hist r0).handResults k) := by
    intro k
    rw [h.final]
    exact (finishResults_counts s flag _).2.2.2.2 k
  refine ⟨fun c hc => ?_, fun k hk hno => ?_⟩
  · have hin := rowKey_inRow (p := p) (h.board_hand.1 _ (List.getElem_mem hp) c hc)
    have hu := hU _ (hlt _ hin)
    obtain ⟨hi1, hi2⟩ := hI.1 c hc
    have hinfo : infoOf ((applyFlushes sqrt s.nPlayers ex hist r0).handResults (rowKey p c)) = infoOf (r0.handResults (rowKey p c)) := by
      rw [hu]; rfl
    rw [hcell, hF _ hin, hi2 _ hinfo, hu, hi1]
    exact finalUnit_unitOf _ ⟨c.w, rankInfo b c, drawInfo b c, true⟩ rfl
  · have hu := hU _ (hlt _ hk)
    obtain ⟨hi1, hi2⟩ := hI.2 k hk hno
    rw [hcell, hF _ hk, hi2, hu, hi1]
    rfl

theorem infoOf_finalUnit (u : UnitResults) : infoOf (finalUnit u) = infoOf u := by
  unfold finalUnit
  split
  · split <;> rfl
  · rfl

/-- Weight, category, draw flags and validity of every hand after any run. -/
theorem Calc.info (h : Calc sqrt ex ranges b d r s flag r0 hist sd)
    (hdist : ∀ r ∈ s.handRanges, DistinctHands r) {p : Nat} (hp : p < s.handRanges.length) :
    (∀ c ∈ s.handRanges[p], infoOf (r.handResults (rowKey p c)) = ⟨c.w, rankInfo b c, drawInfo b c, true⟩) ∧
    (∀ k, InRow p k → (∀ c ∈ s.handRanges[p], rowKey p c ≠ k) → infoOf (r.handResults k) = ⟨0, 255, 0, false⟩) := by
  by_cases hne : hist = []
  · have hn : s.handRanges.length = s.nPlayers := by
      rw [h.hands, h.players, List.length_map]
    have hI := h.start_info hdist hp
    have hlt : ∀ k, InRow p k → k < NUM_HANDS * s.nPlayers := by
      intro k hk
      have := hk.2
      have : NUM_HANDS * (p + 1) ≤ NUM_HANDS * s.nPlayers := Nat.mul_le_mul_left _ (by omega)
      rw [Nat.mul_add, Nat.mul_one] at this
      omega
    have hF : ∀ k, InRow p k → infoOf (r.handResults k) = infoOf (fixHandWeights s.handRanges flag r0.handResults k) := by
      intro k hk
      rw [h.final, hne, finishResults_hand s flag _ (hlt k hk), infoOf_finalUnit]
      rfl
    refine ⟨fun c hc => ?_, fun k hk hno => ?_⟩
    · have hin := rowKey_inRow (p := p) (h.board_hand.1 _ (List.getElem_mem hp) c hc)
      obtain ⟨hi1, hi2⟩ := hI.1 c hc
      rw [hF _ hin, hi2 _ rfl]
      have h1 := congrArg HandInfo.rank hi1
      have h2 := congrArg HandInfo.draw hi1
      have h3 := congrArg HandInfo.valid hi1
      simp only [infoOf] at h1 h2 h3 ⊢
      rw [h1, h2, h3]
    · obtain ⟨hi1, hi2⟩ := hI.2 k hk hno
      rw [hF _ hk, hi2, hi1]
  · obtain ⟨h1, h2⟩ := h.record hne hdist hp
    refine ⟨fun c hc => ?_, fun k hk hno => ?_⟩
    · rw [h1 c hc]; rfl
    · rw [h2 k hk hno]; rfl

end

/-- What the final steps publish besides the hand results. -/
theorem finishResults_rest (s : Sim) (flag : Nat) (r : Results) :
    (finishResults s flag r).equities = (getEquity s.nPlayers r).equities ∧
    (finishResults s flag r).comboResults = r.comboResults ++ (List.range s.nPlayers).flatMap (fun i =>
      (starts NUM_HANDS 0).map fun j => comboUnit i j (fixHandWeights s.handRanges flag r.handResults)) ∧
    (countOnes s.boardMask > 2 →
      (∀ k < 9 * s.nPlayers, (finishResults s flag r).boardResults k =
        boardUnit ((boardTables s.nPlayers (finishResults s flag r).handResults).1 k) (r.boardResults k)) ∧
      (∀ k < 10 * s.nPlayers, (finishResults s flag r).boardDraws k =
        boardUnit ((boardTables s.nPlayers (finishResults s flag r).handResults).2 k) (r.boardDraws k))) ∧
    (countOnes s.boardMask ≤ 2 → (finishResults s flag r).boardResults = r.boardResults ∧
      (finishResults s flag r).boardDraws = r.boardDraws) := by
  have h2 := (generateFinalData_eq s.nPlayers
    (getEquity s.nPlayers { r with handResults := fixHandWeights s.handRanges flag r.handResults })).2
  unfold finishResults
  simp only
  by_cases hc : countOnes s.boardMask > 2
  · rw [if_pos hc]
    refine ⟨rfl, h2, fun _ => ⟨fun k hk => ?_, fun k hk => ?_⟩, fun h => absurd hc (by omega)⟩
    · exact if_pos hk
    · exact if_pos hk
  · rw [if_neg hc]
    exact ⟨rfl, h2, fun h => absurd h hc, fun _ => ⟨rfl, rfl⟩⟩

end Pokers
