import Verif.Proofs.CheckedSound
import Verif.Props.Exact
import Mathlib.Data.Nat.Choose.Basic
/-!
# Overflow of the counters (C51)

The other theorems about results count without bound.  The crate counts with 64 bits, and a debug build panics when a counter
overflows (a release build goes on with the wrong counter, C75).  The model `ExactEquityC` has all the checks of the threads.
-/
namespace Pokers
open Spec CombinedRange

variable {ranges : List (List Combo)} {b d nT : Nat} {cancelled stopped : Bool}

/-- C51: if all showdowns together weigh less than `2^64`, and there are less than `2^64` of them, then no counter overflows: the
calculation with the checks has exactly the results of the calculation without. -/
theorem C51_no_overflow (hwf : ∀ r ∈ ranges, WfRange r) (hb : CardMask b) (hd : CardMask d) (hS : Small ranges b d)
    (res : Except SimulatorError Results) (sent : List Nat) :
    ExactEquityC ranges b d nT cancelled stopped res sent ↔ ExactEquity ranges b d nT cancelled stopped res sent := by
  unfold ExactEquityC ExactEquity
  cases hok : prepareExact ranges b d with
  | error e => rfl
  | ok s =>
    simp only
    constructor
    · rintro ⟨r0, flag, ds, total, size, w, h1, h2, h3, h4, h5, h6⟩
      have hr : Ready ranges b d s ds total size := ⟨hwf, hb, hd, hok, h2, h3, h4⟩
      exact ⟨r0, flag, ds, total, size, w, h1, h2, h3, h4, (hr.stepsC_iff hS h1).1 h5, h6⟩
    · rintro ⟨r0, flag, ds, total, size, w, h1, h2, h3, h4, h5, h6⟩
      have hr : Ready ranges b d s ds total size := ⟨hwf, hb, hd, hok, h2, h3, h4⟩
      exact ⟨r0, flag, ds, total, size, w, h1, h2, h3, h4, (hr.stepsC_iff hS h1).2 h5, h6⟩

/-- C51: and no thread panics in it (unless the position counter overflows). -/
theorem C51_no_panic {s : Sim} {ds : List DividerU64} {total size : Nat} (h : Ready ranges b d s ds total size) (hS : Small ranges b d)
    {r0 : Results} {flag : Nat} (hr0 : startResults s = some (r0, flag)) (hov : total + size < 2 ^ 64) {w : World}
    (hs : StepsC s ds total size nT (World.init s r0 cancelled) w) (t : Nat) : (w.locals t).pc ≠ .panicked :=
  Steps.no_panic h.processes h.size_pos hov ((h.stepsC_iff hS hr0).1 hs) t

/-! ## When there is enough room -/

theorem choices_length {α : Type} : ∀ l : List (List α), (choices l).length = (l.map List.length).prod
  | [] => rfl
  | r :: rs => by
    unfold choices
    rw [List.length_flatMap, List.map_cons, List.prod_cons]
    simp [choices_length rs]

theorem boards_length_le (board dead : List Nat) (dd : List WHand) : (boards board dead dd).length ≤ Nat.choose 52 5 := by
  unfold boards completions
  rw [List.length_map, List.length_sublistsLen]
  refine le_trans (Nat.choose_le_choose _ ((List.length_filter_le _ _).trans (by rw [List.length_range]))) ?_
  generalize hk : 5 - board.length = k
  have : k ≤ 5 := by omega
  interval_cases k <;> decide +kernel

theorem dealShows_sum (board dead : List Nat) (ds : List (List WHand)) (M : Nat) (h : ∀ dd ∈ ds, Spec.dealWeight dd ≤ M) :
    (ds.flatMap (dealShows board dead)).length ≤ ds.length * Nat.choose 52 5 ∧
    totalWeight (ds.flatMap (dealShows board dead)) ≤ ds.length * Nat.choose 52 5 * M := by
  induction ds with
  | nil => exact ⟨Nat.zero_le _, Nat.zero_le _⟩
  | cons x ds ih =>
    obtain ⟨h1, h2⟩ := ih (fun y hy => h y (by simp [hy]))
    have hb := boards_length_le board dead x
    have e1 : totalWeight (dealShows board dead x) = (boards board dead x).length * Spec.dealWeight x := by
      unfold totalWeight dealShows
      rw [List.map_map]
      generalize boards board dead x = bs
      induction bs with
      | nil => simp
      | cons B bs ih => rw [List.map_cons, List.sum_cons, ih, List.length_cons, Nat.succ_mul, Nat.add_comm]; rfl
    have e2 : totalWeight ((x :: ds).flatMap (dealShows board dead)) =
        totalWeight (dealShows board dead x) + totalWeight (ds.flatMap (dealShows board dead)) := by
      rw [List.flatMap_cons]
      unfold totalWeight
      rw [List.map_append, List.sum_append]
    rw [e2, e1, List.flatMap_cons, List.length_append, List.length_cons, Nat.succ_mul, Nat.add_mul]
    have e3 : (dealShows board dead x).length = (boards board dead x).length := by unfold dealShows; rw [List.length_map]
    rw [e3]
    have hm := Nat.mul_le_mul hb (h x (by simp))
    omega

theorem deal_le {blocked : List Nat} (h100 : ∀ r ∈ ranges, ∀ c ∈ r, c.w ≤ 100) {dd : List WHand}
    (hd : dd ∈ deals (specRanges ranges) blocked) : Spec.dealWeight dd ≤ 100 ^ ranges.length := by
  unfold deals at hd
  obtain ⟨h1, h2⟩ := (mem_choices _ _).1 (List.mem_filter.1 hd).1
  have hlen : dd.length = ranges.length := by rw [h1]; simp [specRanges]
  unfold Spec.dealWeight
  refine (prod_le_pow _ ?_).trans (le_of_eq (by rw [List.length_map, hlen]))
  intro x hx
  obtain ⟨y, hy, rfl⟩ := List.mem_map.1 hx
  obtain ⟨i, hi, rfl⟩ := List.getElem_of_mem hy
  have := h2 i hi (by rw [← h1]; exact hi)
  unfold specRanges at this
  rw [List.getElem_map, List.mem_map] at this
  obtain ⟨k, hk, he⟩ := this
  rw [← he]
  exact h100 _ (List.getElem_mem _) k hk

/-- C51: the product of the numbers of hands, the number of boards and `100` for each player is below `2^64`: this is enough. -/
theorem C51_enough (h100 : ∀ r ∈ ranges, ∀ c ∈ r, c.w ≤ 100)
    (h : (ranges.map List.length).prod * Nat.choose 52 5 * 100 ^ ranges.length < 2 ^ 64) : Small ranges b d := by
  have hlen : (deals (specRanges ranges) (maskCards b ++ maskCards d)).length ≤ (ranges.map List.length).prod := by
    unfold deals
    refine (List.length_filter_le _ _).trans (le_of_eq ?_)
    rw [choices_length]
    unfold specRanges
    rw [List.map_map]
    congr 1
    apply List.map_congr_left
    intro r _
    simp
  obtain ⟨h1, h2⟩ := dealShows_sum (maskCards b) (maskCards d) (deals (specRanges ranges) (maskCards b ++ maskCards d)) (100 ^ ranges.length)
    (fun dd hdd => deal_le h100 hdd)
  rw [← showdowns_eq] at h1 h2
  have hpow : 1 ≤ 100 ^ ranges.length := Nat.one_le_pow _ _ (by decide)
  have hm := Nat.mul_le_mul_right (Nat.choose 52 5) hlen
  have hm2 := Nat.mul_le_mul_right (100 ^ ranges.length) hm
  refine ⟨⟨h100, fun dd hdd => ?_⟩, by omega, ?_⟩
  · have hpos : 1 ≤ (ranges.map List.length).prod := le_trans (List.length_pos_of_mem hdd) hlen
    have hw := deal_le h100 hdd
    have hc : (4 : Nat) ^ 5 ≤ Nat.choose 52 5 := by decide +kernel
    have := Nat.mul_le_mul (Nat.mul_le_mul hpos hc) hw
    rw [Nat.mul_comm]
    omega
  · have := Nat.mul_le_mul hm hpow
    omega

/-- C51: two players: whatever the ranges and the board, no counter overflows. -/
theorem C51_two_players (h2 : ranges.length = 2) (h100 : ∀ r ∈ ranges, ∀ c ∈ r, c.w ≤ 100) (hr : ∀ r ∈ ranges, r.length ≤ 1326) :
    Small ranges b d := by
  refine C51_enough h100 ?_
  match ranges, h2 with
  | [r1, r2], _ =>
    have h1 := hr r1 (by simp)
    have h2 := hr r2 (by simp)
    have := Nat.mul_le_mul h1 h2
    have e : ([r1, r2].map List.length).prod = r1.length * r2.length := by simp
    rw [e]
    have hc : Nat.choose 52 5 = 2598960 := by decide +kernel
    rw [hc]
    show _ * 100 ^ 2 < _
    omega

/-! ## When there is not -/

/-- C51: a calculation with the checks that returns has counted correctly, and all its hand counters are below `2^64`. -/
theorem C51_returned (hwf : ∀ r ∈ ranges, WfRange r) (hb : CardMask b) (hd : CardMask d) (hS : SmallDeals ranges b d)
    {r : Results} {sent : List Nat} (h : ExactEquityC ranges b d nT cancelled stopped (.ok r) sent) :
    ExactEquity ranges b d nT cancelled stopped (.ok r) sent ∧
    ∀ k < NUM_HANDS * ranges.length, (r.handResults k).wins < 2 ^ 64 ∧ (r.handResults k).ties < 2 ^ 64 ∧ (r.handResults k).total < 2 ^ 64 := by
  unfold ExactEquityC at h
  unfold ExactEquity
  cases hok : prepareExact ranges b d with
  | error e => rw [hok] at h; exact absurd h.1 (by simp)
  | ok s =>
    rw [hok] at h
    simp only at h ⊢
    obtain ⟨r0, flag, ds, total, size, w, h1, h2, h3, h4, h5, h6, h7, h8⟩ := h
    have hr : Ready ranges b d s ds total size := ⟨hwf, hb, hd, hok, h2, h3, h4⟩
    rcases hr.stepsC_sound hS h1 h5 with ⟨t, ht, hp⟩ | ⟨hst, hf⟩
    · rw [h6 t ht] at hp; cases hp
    · refine ⟨⟨r0, flag, ds, total, size, w, h1, h2, h3, h4, hst, h6, h7, h8⟩, fun k hk => ?_⟩
      have hx := hf k (by rw [hr.fields.1]; exact hk)
      have e : r = finishResults s flag w.shared.results := by simpa using h7
      have hc := (finishResults_counts s flag w.shared.results).2.2.2.2 k
      rw [← e] at hc
      have e1 : (r.handResults k).wins = (w.shared.results.handResults k).wins := congrArg (fun c : Cell => c.1) hc
      have e2 : (r.handResults k).ties = (w.shared.results.handResults k).ties := congrArg (fun c : Cell => c.2.1) hc
      have e3 : (r.handResults k).total = (w.shared.results.handResults k).total := congrArg (fun c : Cell => c.2.2.1) hc
      rw [e1, e2, e3]
      exact hx

/-- C51: hence a calculation in which some hand would be counted `2^64` times or more never returns, whatever the threads do. -/
theorem C51_overflow (hwf : ∀ r ∈ ranges, WfRange r) (hb : CardMask b) (hd : CardMask d) (hS : SmallDeals ranges b d) (hT : 0 < nT)
    {p x y : Nat} (hp : p < ranges.length) (hx : x < 52) (hy : y < 52) (hxy : x ≠ y)
    (hbig : 2 ^ 64 ≤ handTotal (showdowns (specRanges ranges) (maskCards b) (maskCards d)) p x y) (r : Results) (sent : List Nat) :
    ¬ ExactEquityC ranges b d nT cancelled false (.ok r) sent := by
  intro h
  obtain ⟨h1, h2⟩ := C51_returned hwf hb hd hS h
  have h3 := (C31_hands hwf hb hd hT h1 hp hx hy hxy).2.2.1
  have h4 := (h2 _ (cell_lt hp hx hy hxy)).2.2
  rw [h3] at h4
  omega

theorem choices_single {α : Type} : ∀ l : List α, choices (l.map fun x => [x]) = [l]
  | [] => rfl
  | a :: l => by
    unfold choices
    rw [List.map_cons]
    simp [choices_single l]

theorem free_length (L : List Nat) (hn : L.Nodup) (hl : ∀ c ∈ L, c < 52) : ((List.range 52).filter fun c => c ∉ L).length = 52 - L.length := by
  have h1 := List.length_eq_length_filter_add (l := List.range 52) (fun c => decide (c ∈ L))
  have h2 : ((List.range 52).filter fun c => decide (c ∈ L)).Perm L := by
    refine (List.perm_ext_iff_of_nodup (List.nodup_range.filter _) hn).2 (fun c => ?_)
    rw [List.mem_filter, List.mem_range, decide_eq_true_iff]
    exact ⟨fun h => h.2, fun h => ⟨hl c h, h⟩⟩
  rw [List.length_range, h2.length_eq] at h1
  have h3 : ((List.range 52).filter fun c => c ∉ L) = (List.range 52).filter fun c => !decide (c ∈ L) := by
    apply List.filter_congr
    intro c _
    simp
  rw [h3]
  omega

/-- One hand for each player, all of weight 100. -/
structure Hands (cs : List Combo) : Prop where
  wf : WfRange cs
  full : ∀ c ∈ cs, c.w = 100
  distinct : (dealt (cs.map toHole)).Nodup

theorem Hands.showdowns {cs : List Combo} (h : Hands cs) :
    showdowns (specRanges (cs.map fun c => [c])) (maskCards 0) (maskCards 0) = dealShows [] [] (cs.map toHole) := by
  have e0 : maskCards 0 = [] := by decide
  have e : specRanges (cs.map fun c => [c]) = (cs.map toHole).map fun x => [x] := by
    unfold specRanges
    rw [List.map_map, List.map_map]
    rfl
  have hL : Spec.Legal [] (cs.map toHole) := ⟨h.distinct, fun _ _ hx => by cases hx⟩
  rw [showdowns_eq, e0, e]
  unfold deals
  rw [choices_single, List.append_nil, List.filter_cons, if_pos (decide_eq_true hL), List.filter_nil, List.flatMap_cons, List.flatMap_nil,
    List.append_nil]

theorem Hands.weight {cs : List Combo} (h : Hands cs) : Spec.dealWeight (cs.map toHole) = 100 ^ cs.length := by
  have := h.full
  clear h
  unfold Spec.dealWeight
  induction cs with
  | nil => rfl
  | cons c cs ih =>
    rw [List.map_cons, List.map_cons, List.prod_cons, ih (fun x hx => this x (by simp [hx])), List.length_cons, pow_succ, Nat.mul_comm]
    congr 1
    exact this c (by simp)

theorem dealt_length : ∀ dd : List WHand, (dealt dd).length = 2 * dd.length
  | [] => rfl
  | x :: dd => by
    have := dealt_length dd
    unfold dealt at this ⊢
    rw [List.flatMap_cons, List.length_append, this, List.length_cons]
    show 2 + _ = _
    omega

theorem Hands.total {cs : List Combo} (h : Hands cs) {p : Nat} (hp : p < cs.length) :
    handTotal (Spec.showdowns (specRanges (cs.map fun c => [c])) (maskCards 0) (maskCards 0)) p (cs[p]).c1 (cs[p]).c2 =
      (52 - 2 * cs.length).choose 5 * 100 ^ cs.length := by
  rw [h.showdowns]
  have hH : Holds p (cs[p]).c1 (cs[p]).c2 (cs.map toHole) := by
    refine ⟨by rw [List.length_map]; exact hp, Or.inl ?_⟩
    rw [List.getD_eq_getElem _ _ (by rw [List.length_map]; exact hp), List.getElem_map]
    exact ⟨rfl, rfl⟩
  have hlen : (boards [] [] (cs.map toHole)).length = (52 - 2 * cs.length).choose 5 := by
    unfold boards completions
    rw [List.length_map, List.length_sublistsLen]
    show (((List.range 52).filter fun c => c ∉ dealt (cs.map toHole)).length).choose 5 = _
    rw [free_length _ h.distinct, dealt_length, List.length_map]
    intro c hc
    obtain ⟨x, hx, hcx⟩ := List.mem_flatMap.1 hc
    obtain ⟨k, hk, rfl⟩ := List.mem_map.1 hx
    have := h.wf k hk
    rcases List.mem_cons.1 hcx with rfl | hcx
    · exact this.1
    · rw [List.mem_singleton] at hcx; subst hcx; exact this.2.1
  rw [← hlen, ← h.weight]
  unfold handTotal dealShows
  generalize boards [] [] (cs.map toHole) = bs
  induction bs with
  | nil => simp [weightOf_nil]
  | cons B bs ih =>
    rw [List.map_cons, weightOf_cons, ih, if_pos hH, List.length_cons, Nat.succ_mul, Nat.add_comm]

/-- C51 (finding): seven or eight known hands before the flop, each of the default weight 100, are accepted, but the calculation
always overflows: it never returns a result. -/
theorem C51_seven_hands {cs : List Combo} (h : Hands cs) (h7 : cs.length = 7 ∨ cs.length = 8) (hT : 0 < nT) (r : Results) (sent : List Nat) :
    ¬ ExactEquityC (cs.map fun c => [c]) 0 0 nT cancelled false (.ok r) sent := by
  have hd0 : CardMask 0 := by unfold CardMask; decide
  have h100 : ∀ r ∈ cs.map (fun c => [c]), ∀ c ∈ r, c.w ≤ 100 := by
    intro r hr c hc
    obtain ⟨k, hk, rfl⟩ := List.mem_map.1 hr
    rw [List.mem_singleton] at hc
    subst hc
    exact (h.full c hk).le
  have hp : 0 < cs.length := by omega
  have hc := h.wf (cs[0]) (List.getElem_mem hp)
  refine C51_overflow (p := 0) (x := (cs[0]).c1) (y := (cs[0]).c2) ?_ hd0 hd0 ⟨h100, fun dd hdd => ?_⟩ hT ?_ hc.1 hc.2.1 hc.2.2 ?_ r sent
  · intro r hr
    obtain ⟨k, hk, rfl⟩ := List.mem_map.1 hr
    intro c hc
    rw [List.mem_singleton] at hc
    subst hc
    exact h.wf c hk
  · have := deal_le h100 hdd
    rw [List.length_map] at this
    have h8 : 100 ^ cs.length ≤ 100 ^ 8 := Nat.pow_le_pow_right (by decide) (by omega)
    omega
  · rw [List.length_map]; exact hp
  · rw [h.total hp]
    rcases h7 with h7 | h7 <;> (rw [h7]; decide +kernel)

/-- Seven pairs of aces to eights. -/
def sevenHands : List Combo :=
  [⟨50, 51, 100⟩, ⟨46, 47, 100⟩, ⟨42, 43, 100⟩, ⟨38, 39, 100⟩, ⟨34, 35, 100⟩, ⟨30, 31, 100⟩, ⟨26, 27, 100⟩]

theorem seven_hands : Hands sevenHands := ⟨by unfold WfRange sevenHands; decide, by decide, by decide⟩

/-- The input is accepted: without the checks there are runs. -/
example : ∃ r sent, ExactEquity (sevenHands.map fun c => [c]) 0 0 4 false false (.ok r) sent :=
  run_exists' (by unfold WfRange sevenHands; decide) (by unfold CardMask; decide) (by unfold CardMask; decide) (by decide +kernel)
    (by decide +kernel) (by decide +kernel) 4 false

example (r : Results) (sent : List Nat) : ¬ ExactEquityC (sevenHands.map fun c => [c]) 0 0 4 false false (.ok r) sent :=
  C51_seven_hands seven_hands (Or.inl (by decide)) (by decide) r sent

/-- Two hands on the flop do return a result with the checks. -/
example : ∃ r sent, ExactEquityC twoHands flopMask 0 3 false false (.ok r) sent := by
  obtain ⟨r, sent, h⟩ := two_run 3 false
  refine ⟨r, sent, (C51_no_overflow (by unfold WfRange twoHands; decide) (by unfold CardMask; decide) (by unfold CardMask; decide)
    (C51_two_players (by decide) (by decide) (by decide)) _ _).2 h⟩

end Pokers
