import Verif.Proofs.GoRound
import Verif.Props.ReleaseMc
import Verif.Props.FloatStop
import Verif.Props.Rounding
import Verif.Props.Docs
import Verif.Props.SuitSymmetry
/-!
# The random simulation goes round the deals (C79)

If the ranges are small enough to be combined into one (C66), a step of the random walk leads from each combo to the one before it in the
shuffled list.  So nothing is random about the hole cards but the order of the list and the places where the batches begin.
-/
namespace Pokers
open Spec CombinedRange
open Finset (range)

variable {sqrt : ℚ → ℚ} {ranges : List (List Combo)} {b d nT : Nat} {target : ℚ} {cancelled : Bool} {r : Results} {sent : List Nat}

/-- The counters of `r` are those of the showdowns `sd`, for `n` players: of every hand, and up to eight players of the winner masks and the
players. -/
structure Reports (n : Nat) (r : Results) (sd : List (List WHand × List Nat)) : Prop where
  evals : r.evalCount = sd.length
  hands : ∀ p < n, ∀ x < 52, ∀ y < 52, x ≠ y →
    let u := r.handResults (NUM_HANDS * p + getCardIndex x y)
    u.wins = handWins sd p x y ∧ u.ties = handTies sd p x y ∧ u.total = handTotal sd p x y ∧ u.correctedTies = handShares sd p x y
  masks : n ≤ 8 → ∀ i < 2 ^ n, r.winsByMask i = winsOf sd (maskPlayers n i)
  wins : n ≤ 8 → ∀ p < n, r.wins p = winsOf sd [p]

theorem McRun.reports {s : Sim} {flag : Nat} {r0 : Results} {hist : List (Batch × HandStats)} {sd : List (List WHand × List Nat)}
    (hrun : McRun sqrt ranges b d r s flag r0 hist sd) : Reports ranges.length r sd := by
  obtain ⟨hc, he⟩ := hrun.counts
  have hlen : ∀ x ∈ sd, x.1.length = ranges.length := fun x hx => (showdowns_wf hrun.ready.wf (legal_iff.1 (hrun.legal x hx))).2
  refine ⟨he, fun p hp x hx y hy hxy => ?_, fun h8 => hc.masks hlen h8, fun h8 => hc.playerWins hlen h8⟩
  have hc := hc.hand p hp x hx y hy hxy
  exact ⟨congrArg (fun c : Cell => c.1) hc, congrArg (fun c : Cell => c.2.1) hc, congrArg (fun c : Cell => c.2.2.1) hc,
    congrArg (fun c : Cell => c.2.2.2) hc⟩

/-- The complete run together with the order of the deals. -/
theorem approx_rounds (hwf : ∀ r ∈ ranges, WfRange r) (hb : CardMask b) (hd : CardMask d)
    (h1 : (fromRanges (ranges.map fun h => removeConflictingCombos h b d)).length = 1)
    (h : ApproxEquity sqrt ranges b d nT target cancelled (.ok r) sent) :
    ∃ (order : List (List WHand)) (batches : List (List (List WHand × List Nat))) (s : Sim) (flag : Nat) (r0 : Results)
      (hist : List (Batch × HandStats)), McRun sqrt ranges b d r s flag r0 hist batches.flatten ∧
      order.Perm (deals (specRanges ranges) (maskCards b ++ maskCards d)) ∧
      ∀ B ∈ batches, B.length = 4096 ∧ ∃ k, GoesRound order k (B.map Prod.fst) := by
  obtain ⟨p, hp, h⟩ := h
  cases p with
  | error e => cases h.1
  | ok s =>
    obtain ⟨r0, flag, w, g1, g2, g3, g4, g5⟩ := h
    have hr : McReady ranges b d s := ⟨hwf, hb, hd, hp⟩
    obtain ⟨cr, hcr⟩ := List.length_eq_one_iff.1 (hr.crs_length.trans h1)
    obtain ⟨hist, Dr, Dl, hi, batches, rfl, hB⟩ := McInv.steps_rounds hr hcr g2
    injection g4 with g4
    exact ⟨visitOrder s cr, batches, s, flag, r0, hist, ⟨hr, g1, by rw [g4, hi.res], hi.hids, hi.hbatch, hi.hsum, hi.hcount, hi.legalR⟩,
      hr.visitOrder hcr, hB⟩

/-- C79: if the ranges are combined into one, there is an order of the legal deals, the same for all threads, such that each batch of 4096
evaluations goes through the deals in this order, starting anywhere and beginning again after the last one.  Each message to the callback
but one per thread belongs to a batch. -/
theorem C79_order (hwf : ∀ r ∈ ranges, WfRange r) (hb : CardMask b) (hd : CardMask d)
    (h1 : (fromRanges (ranges.map fun h => removeConflictingCombos h b d)).length = 1)
    (h : ApproxEquity sqrt ranges b d nT target cancelled (.ok r) sent) :
    ∃ (order : List (List WHand)) (batches : List (List (List WHand × List Nat))),
      order.Perm (deals (specRanges ranges) (maskCards b ++ maskCards d)) ∧
      (∀ B ∈ batches, B.length = 4096 ∧ (∃ k, GoesRound order k (B.map Prod.fst)) ∧
        ∀ x ∈ B, x ∈ showdowns (specRanges ranges) (maskCards b) (maskCards d)) ∧
      batches.length + nT = sent.length ∧ Reports ranges.length r batches.flatten := by
  obtain ⟨order, batches, s, flag, r0, hist, hrun, ho, hB⟩ := approx_rounds hwf hb hd h1 h
  have hrep := hrun.reports
  obtain ⟨m1, m2⟩ := C53_multiple hwf hb hd h
  refine ⟨order, batches, ho, fun B hm => ⟨(hB B hm).1, (hB B hm).2, fun x hx => ?_⟩, ?_, hrep⟩
  · exact legal_iff.1 (hrun.legal x (List.mem_flatten.2 ⟨B, hm, hx⟩))
  · have := hrep.evals
    rw [length_flatten_const fun B hm => (hB B hm).1, m2] at this
    omega

/-! ## How often each deal is evaluated -/

/-- Sums over the deals evaluated. -/
theorem batches_sums {order : List (List WHand)} {batches : List (List (List WHand × List Nat))}
    (ho : order.Perm (deals (specRanges ranges) (maskCards b ++ maskCards d)))
    (hB : ∀ B ∈ batches, B.length = 4096 ∧ ∃ k, GoesRound order k (B.map Prod.fst)) {f : List WHand → ℚ} (hf : ∀ dd, 0 ≤ f dd) :
    let D := deals (specRanges ranges) (maskCards b ++ maskCards d)
    batches.length * (((4096 / D.length : Nat) : ℚ) * (D.map f).sum) ≤ (batches.flatten.map fun x => f x.1).sum ∧
    (batches.flatten.map fun x => f x.1).sum ≤ batches.length * ((((4096 + D.length - 1) / D.length : Nat) : ℚ) * (D.map f).sum) := by
  intro D
  apply sum_flatten
  intro B hm
  obtain ⟨h1, k, h2⟩ := hB B hm
  have := GoesRound.sums h2 (f := f) (fun x _ => hf x)
  rw [List.length_map, h1, ho.length_eq, (ho.map f).sum_eq, List.map_map] at this
  exact this

theorem count_eq_sum {α : Type} [BEq α] (l : List α) (a : α) : (l.count a : ℚ) = (l.map fun x => if (x == a) = true then (1 : ℚ) else 0).sum := by
  induction l with
  | nil => rfl
  | cons x l ih =>
    rw [List.count_cons, List.map_cons, List.sum_cons, ← ih]
    cases x == a
    · simp
    · simp [add_comm]

/-- C79: of `m` legal deals, each is evaluated `4096 / m` times in every batch, rounded down or up.  (A deal that can arise in several ways,
which needs repeated hands in a range, counts as several.) -/
theorem C79_deals (hwf : ∀ r ∈ ranges, WfRange r) (hb : CardMask b) (hd : CardMask d)
    (h1 : (fromRanges (ranges.map fun h => removeConflictingCombos h b d)).length = 1)
    (h : ApproxEquity sqrt ranges b d nT target cancelled (.ok r) sent) :
    let D := deals (specRanges ranges) (maskCards b ++ maskCards d)
    ∃ sd : List (List WHand × List Nat), Reports ranges.length r sd ∧
      (∀ x ∈ sd, x ∈ showdowns (specRanges ranges) (maskCards b) (maskCards d)) ∧ ∀ dd,
      (sent.length - nT) * (4096 / D.length) * D.count dd ≤ (sd.map Prod.fst).count dd ∧
      (sd.map Prod.fst).count dd ≤ (sent.length - nT) * ((4096 + D.length - 1) / D.length) * D.count dd := by
  intro D
  obtain ⟨order, batches, ho, hB, hn, hrep⟩ := C79_order hwf hb hd h1 h
  refine ⟨batches.flatten, hrep, fun x hx => ?_, fun dd => ?_⟩
  · obtain ⟨B, hm, hx⟩ := List.mem_flatten.1 hx
    exact (hB B hm).2.2 x hx
  · obtain ⟨g1, g2⟩ := batches_sums ho (fun B hm => ⟨(hB B hm).1, (hB B hm).2.1⟩) (f := fun x => if (x == dd) = true then (1 : ℚ) else 0)
      (fun x => by split <;> norm_num)
    have e : (batches.flatten.map fun x => (fun x => if (x == dd) = true then (1 : ℚ) else 0) x.1).sum = ((batches.flatten.map Prod.fst).count dd : ℚ) := by
      rw [count_eq_sum, List.map_map]; rfl
    rw [e, ← count_eq_sum, show batches.length = sent.length - nT by omega] at g1 g2
    rw [← mul_assoc] at g1 g2
    exact ⟨by exact_mod_cast g1, by exact_mod_cast g2⟩

/-- C79: in particular the number of deals in which a player holds two given cards is not left to chance: on every board the totals reported
are between `4096 / m` times the weight of these deals, rounded down, and rounded up, for each batch. -/
theorem C79_hand_totals (hwf : ∀ r ∈ ranges, WfRange r) (hb : CardMask b) (hd : CardMask d)
    (h1 : (fromRanges (ranges.map fun h => removeConflictingCombos h b d)).length = 1)
    (h : ApproxEquity sqrt ranges b d nT target cancelled (.ok r) sent) {p x y : Nat} (hp : p < ranges.length) (hx : x < 52) (hy : y < 52)
    (hxy : x ≠ y) :
    let D := deals (specRanges ranges) (maskCards b ++ maskCards d)
    let W := ((D.filter fun dd => Holds p x y dd).map Spec.dealWeight).sum
    let T := (r.handResults (NUM_HANDS * p + getCardIndex x y)).total
    (sent.length - nT) * (4096 / D.length) * W ≤ T ∧ T ≤ (sent.length - nT) * ((4096 + D.length - 1) / D.length) * W := by
  intro D W T
  obtain ⟨order, batches, ho, hB, hn, hrep⟩ := C79_order hwf hb hd h1 h
  have hT : T = handTotal batches.flatten p x y := (hrep.hands p hp x hx y hy hxy).2.2.1
  obtain ⟨g1, g2⟩ := batches_sums ho (fun B hm => ⟨(hB B hm).1, (hB B hm).2.1⟩)
    (f := fun dd => ((if Holds p x y dd then Spec.dealWeight dd else 0 : Nat) : ℚ)) (fun dd => Nat.cast_nonneg _)
  have e1 : (batches.flatten.map fun z => (fun dd => ((if Holds p x y dd then Spec.dealWeight dd else 0 : Nat) : ℚ)) z.1).sum = (T : ℚ) := by
    rw [hT]
    unfold handTotal
    rw [weightOf_eq_sum, Nat.cast_list_sum, List.map_map]
    rfl
  have e2 : ∀ D : List (List WHand), (D.map fun dd => ((if Holds p x y dd then Spec.dealWeight dd else 0 : Nat) : ℚ)).sum =
      (((D.filter fun dd => Holds p x y dd).map Spec.dealWeight).sum : Nat) := by
    intro D
    induction D with
    | nil => rfl
    | cons dd D ih =>
      rw [List.map_cons, List.sum_cons, ih, List.filter_cons]
      by_cases hh : Holds p x y dd
      · simp [hh]
      · simp [hh]
  rw [e1, e2, show batches.length = sent.length - nT by omega, ← mul_assoc] at g1 g2
  exact ⟨by exact_mod_cast g1, by exact_mod_cast g2⟩

/-! ## A complete board -/

/-- On a complete board every deal has one showdown. -/
theorem full_boards {board dead : List Nat} (h5 : board.length = 5) (dd : List WHand) : boards board dead dd = [board] := by
  unfold boards completions
  rw [h5, List.sublistsLen_zero]
  simp

theorem full_showdowns {rs : List (List WHand)} {board dead : List Nat} (h5 : board.length = 5) :
    showdowns rs board dead = (deals rs (board ++ dead)).map fun dd => (dd, board) := by
  unfold showdowns
  simp only [full_boards h5, List.map_cons, List.map_nil]
  exact (List.map_eq_flatMap ..).symm

/-- Sums over the showdowns on a complete board. -/
theorem river_sums {batches : List (List (List WHand × List Nat))} {order : List (List WHand)} (h5 : (maskCards b).length = 5)
    (ho : order.Perm (deals (specRanges ranges) (maskCards b ++ maskCards d)))
    (hB : ∀ B ∈ batches, B.length = 4096 ∧ ∃ k, GoesRound order k (B.map Prod.fst))
    (hL : ∀ x ∈ batches.flatten, x ∈ showdowns (specRanges ranges) (maskCards b) (maskCards d))
    {f : List WHand × List Nat → ℚ} (hf : ∀ x, 0 ≤ f x) :
    let S := showdowns (specRanges ranges) (maskCards b) (maskCards d)
    batches.length * (((4096 / S.length : Nat) : ℚ) * (S.map f).sum) ≤ (batches.flatten.map f).sum ∧
    (batches.flatten.map f).sum ≤ batches.length * ((((4096 + S.length - 1) / S.length : Nat) : ℚ) * (S.map f).sum) := by
  intro S
  have hS : S = (deals (specRanges ranges) (maskCards b ++ maskCards d)).map fun dd => (dd, maskCards b) := full_showdowns h5
  have := batches_sums ho hB (f := fun dd => f (dd, maskCards b)) (fun dd => hf _)
  simp only at this
  have e : (batches.flatten.map fun x => f (x.1, maskCards b)) = batches.flatten.map f := by
    apply List.map_congr_left
    intro x hx
    have hx := hL x hx
    change x ∈ S at hx
    rw [hS] at hx
    obtain ⟨dd, _, rfl⟩ := List.mem_map.1 hx
    rfl
  rw [e] at this
  rw [hS, List.length_map, List.map_map]
  exact this

/-- If the number of deals is a divisor of 4096, the sums are multiples of those over all showdowns. -/
theorem river_exact {batches : List (List (List WHand × List Nat))} {order : List (List WHand)} (h5 : (maskCards b).length = 5)
    (ho : order.Perm (deals (specRanges ranges) (maskCards b ++ maskCards d)))
    (hB : ∀ B ∈ batches, B.length = 4096 ∧ ∃ k, GoesRound order k (B.map Prod.fst))
    (hL : ∀ x ∈ batches.flatten, x ∈ showdowns (specRanges ranges) (maskCards b) (maskCards d))
    (hm : (showdowns (specRanges ranges) (maskCards b) (maskCards d)).length ∣ 4096) (f : List WHand × List Nat → ℚ) :
    let S := showdowns (specRanges ranges) (maskCards b) (maskCards d)
    (batches.flatten.map f).sum = ((batches.length * (4096 / S.length) : Nat) : ℚ) * (S.map f).sum := by
  intro S
  have hS : S = (deals (specRanges ranges) (maskCards b ++ maskCards d)).map fun dd => (dd, maskCards b) := full_showdowns h5
  have e : (batches.flatten.map f) = batches.flatten.map fun x => f (x.1, maskCards b) := by
    apply List.map_congr_left
    intro x hx
    have hx := hL x hx
    change x ∈ S at hx
    rw [hS] at hx
    obtain ⟨dd, _, rfl⟩ := List.mem_map.1 hx
    rfl
  have hl : order.length = S.length := by rw [ho.length_eq, hS, List.length_map]
  have hb : ∀ B ∈ batches, (B.map fun x => f (x.1, maskCards b)).sum = ((4096 / S.length : Nat) : ℚ) * (S.map f).sum := by
    intro B hB'
    obtain ⟨h1, k, h2⟩ := hB B hB'
    have := GoesRound.sum_exact h2 (by rw [List.length_map, h1, hl]; exact hm) fun dd => f (dd, maskCards b)
    rw [List.length_map, h1, hl, List.map_map] at this
    rw [hS, List.map_map, ← (ho.map _).sum_eq, List.length_map]
    rw [hS, List.length_map] at this
    exact this
  obtain ⟨g1, g2⟩ := sum_flatten batches (fun x => f (x.1, maskCards b)) (fun B hB' => ⟨(hb B hB').ge, (hb B hB').le⟩)
  rw [e]
  push_cast
  rw [mul_assoc]
  exact le_antisymm g2 g1

/-- Counts that are multiples. -/
theorem weightOf_scaled {sd S : List (List WHand × List Nat)} {c : Nat} (h : ∀ f : List WHand × List Nat → ℚ, (sd.map f).sum = c * (S.map f).sum)
    (P : List WHand × List Nat → Prop) [DecidablePred P] : weightOf sd P = c * weightOf S P := by
  have := h fun x => ((if P x then Spec.dealWeight x.1 else 0 : Nat) : ℚ)
  rw [weightOf_eq_sum, weightOf_eq_sum]
  have e : ∀ l : List (List WHand × List Nat), (l.map fun x => ((if P x then Spec.dealWeight x.1 else 0 : Nat) : ℚ)).sum =
      (((l.map fun x => if P x then Spec.dealWeight x.1 else 0).sum : Nat) : ℚ) := by
    intro l
    rw [Nat.cast_list_sum, List.map_map]
    rfl
  rw [e, e] at this
  exact_mod_cast this

/-- C79: on a complete board, if the number of deals is a divisor of 4096, the random simulation is not random: all counters are exact
multiples of those over all showdowns, in every run. -/
theorem C79_river_counts (hwf : ∀ r ∈ ranges, WfRange r) (hb : CardMask b) (hd : CardMask d) (h5 : (maskCards b).length = 5)
    (h1 : (fromRanges (ranges.map fun h => removeConflictingCombos h b d)).length = 1)
    (hm : (showdowns (specRanges ranges) (maskCards b) (maskCards d)).length ∣ 4096)
    (h : ApproxEquity sqrt ranges b d nT target cancelled (.ok r) sent) :
    let S := showdowns (specRanges ranges) (maskCards b) (maskCards d)
    let c := (sent.length - nT) * (4096 / S.length)
    r.evalCount = c * S.length ∧
    (∀ p < ranges.length, ∀ x < 52, ∀ y < 52, x ≠ y →
      let u := r.handResults (NUM_HANDS * p + getCardIndex x y)
      u.wins = c * handWins S p x y ∧ u.ties = c * handTies S p x y ∧ u.total = c * handTotal S p x y ∧
      u.correctedTies = c * handShares S p x y) ∧
    (ranges.length ≤ 8 → (∀ i < 2 ^ ranges.length, r.winsByMask i = c * winsOf S (maskPlayers ranges.length i)) ∧
      ∀ p < ranges.length, r.wins p = c * winsOf S [p]) := by
  intro S c
  obtain ⟨order, batches, ho, hB, hn, hrep⟩ := C79_order hwf hb hd h1 h
  have hL : ∀ x ∈ batches.flatten, x ∈ showdowns (specRanges ranges) (maskCards b) (maskCards d) := fun x hx => by
    obtain ⟨B, hm, hx⟩ := List.mem_flatten.1 hx
    exact (hB B hm).2.2 x hx
  have key := river_exact h5 ho (fun B hm => ⟨(hB B hm).1, (hB B hm).2.1⟩) hL hm
  simp only at key
  rw [show batches.length = sent.length - nT by omega] at key
  change ∀ f : List WHand × List Nat → ℚ, (batches.flatten.map f).sum = (c : ℚ) * (S.map f).sum at key
  refine ⟨?_, fun p hp x hx y hy hxy => ?_, fun h8 => ⟨fun i hi => ?_, fun p hp => ?_⟩⟩
  · rw [hrep.evals]
    have := key fun _ => 1
    rw [List.map_const', List.map_const', List.sum_replicate, List.sum_replicate, nsmul_eq_mul, nsmul_eq_mul, mul_one, mul_one] at this
    exact_mod_cast this
  · obtain ⟨k1, k2, k3, k4⟩ := hrep.hands p hp x hx y hy hxy
    refine ⟨k1.trans ?_, k2.trans ?_, k3.trans ?_, k4.trans ?_⟩
    · exact weightOf_scaled key _
    · exact weightOf_scaled key _
    · exact weightOf_scaled key _
    · rw [handShares_eq_sum, handShares_eq_sum]
      exact key _
  · rw [hrep.masks h8 i hi]
    exact weightOf_scaled key _
  · rw [hrep.wins h8 p hp]
    exact weightOf_scaled key _

/-! ## The equities on a complete board -/

theorem fdiv_scaled {c : ℚ} (hc : c ≠ 0) (x y : ℚ) : fdiv (c * x) (c * y) = fdiv x y := by
  unfold fdiv
  by_cases hy : y = 0
  · rw [if_pos hy, if_pos (by rw [hy, mul_zero])]
  · rw [if_neg hy, if_neg (mul_ne_zero hc hy), mul_div_mul_left _ _ hc]

theorem equity_scaled {sd S : List (List WHand × List Nat)} {c : Nat} (hc : 0 < c)
    (h : ∀ f : List WHand × List Nat → ℚ, (sd.map f).sum = c * (S.map f).sum) (p : Nat) :
    totalWeight sd = c * totalWeight S ∧ fdiv ((winsOf sd [p] : ℚ) + sharesOf sd p) (totalWeight sd : ℚ) =
      fdiv ((winsOf S [p] : ℚ) + sharesOf S p) (totalWeight S : ℚ) := by
  have e1 : winsOf sd [p] = c * winsOf S [p] := weightOf_scaled h _
  have e2 : sharesOf sd p = c * sharesOf S p := by rw [sharesOf_eq_sum, sharesOf_eq_sum]; exact h _
  have e3 : totalWeight sd = c * totalWeight S := by rw [← weightOf_true, ← weightOf_true]; exact weightOf_scaled h _
  refine ⟨e3, ?_⟩
  rw [e1, e2, e3]
  push_cast
  rw [← mul_add]
  exact fdiv_scaled (by exact_mod_cast hc.ne') _ _

/-- The run and its showdowns, on a complete board with a number of deals that divides 4096. -/
theorem river_run (hwf : ∀ r ∈ ranges, WfRange r) (hb : CardMask b) (hd : CardMask d) (h5 : (maskCards b).length = 5)
    (h1 : (fromRanges (ranges.map fun h => removeConflictingCombos h b d)).length = 1)
    (hm : (showdowns (specRanges ranges) (maskCards b) (maskCards d)).length ∣ 4096)
    (h : ApproxEquity sqrt ranges b d nT target cancelled (.ok r) sent) :
    let S := showdowns (specRanges ranges) (maskCards b) (maskCards d)
    ∃ s flag r0 hist sd, McRun sqrt ranges b d r s flag r0 hist sd ∧
      (∀ f : List WHand × List Nat → ℚ, (sd.map f).sum = ((sent.length - nT) * (4096 / S.length) : Nat) * (S.map f).sum) ∧
      0 < 4096 / S.length := by
  intro S
  obtain ⟨order, batches, s, flag, r0, hist, hrun, ho, hB⟩ := approx_rounds hwf hb hd h1 h
  obtain ⟨m1, m2⟩ := C53_multiple hwf hb hd h
  have hn : batches.length = sent.length - nT := by
    have := hrun.reports.evals
    rw [length_flatten_const fun B hm => (hB B hm).1, m2] at this
    omega
  have key := river_exact h5 ho hB (fun x hx => legal_iff.1 (hrun.legal x hx)) hm
  simp only at key
  rw [hn] at key
  exact ⟨s, flag, r0, hist, _, hrun, key, Nat.div_pos (Nat.le_of_dvd (by decide) hm) (Nat.pos_of_dvd_of_pos hm (by decide))⟩

/-- C79: on a complete board, if the number of deals is a divisor of 4096 and the pots can be shared, `approx_equity` returns the exact
equities, whenever it has completed at least one batch. -/
theorem C79_river_equities (hwf : ∀ r ∈ ranges, WfRange r) (hb : CardMask b) (hd : CardMask d) (h5 : (maskCards b).length = 5)
    (h1 : (fromRanges (ranges.map fun h => removeConflictingCombos h b d)).length = 1)
    (hm : (showdowns (specRanges ranges) (maskCards b) (maskCards d)).length ∣ 4096) (h8 : ranges.length ≤ 8) (hw : WholeShares ranges b d)
    (h : ApproxEquity sqrt ranges b d nT target cancelled (.ok r) sent) (hs : nT < sent.length) :
    let S := showdowns (specRanges ranges) (maskCards b) (maskCards d)
    ∀ p < ranges.length, r.equities[p]? = some (fdiv ((winsOf S [p] : ℚ) + sharesOf S p) (totalWeight S : ℚ)) := by
  intro S p hp
  obtain ⟨s, flag, r0, hist, sd, hrun, key, hpos⟩ := river_run hwf hb hd h5 h1 hm h
  rw [(hrun.calc.exact_shares h8 hw).2 p hp, (equity_scaled (Nat.mul_pos (by omega) hpos) key p).2]

/-- C79: so does the floating-point model, up to a single rounding: with a target of at least `1 / 31622` the result of `approx_equity` is
the same as that of `exact_equity`, to the last bit (compare `C63_correctly_rounded`). -/
theorem C79_river_float (hwf : ∀ r ∈ ranges, WfRange r) (hb : CardMask b) (hd : CardMask d) (h5 : (maskCards b).length = 5)
    (h1 : (fromRanges (ranges.map fun h => removeConflictingCombos h b d)).length = 1)
    (hm : (showdowns (specRanges ranges) (maskCards b) (maskCards d)).length ∣ 4096) (h8 : ranges.length ≤ 8) (hw : WholeShares ranges b d)
    (hT : 0 < nT) {T : ℚ} (htg : 1 / 31622 ≤ T) {prog : Option ℚ → Nat}
    (h53 : let S := showdowns (specRanges ranges) (maskCards b) (maskCards d)
      nT * (4096 / S.length) * totalWeight S ≤ 2 ^ 53)
    (h : ApproxEquityF devF prog ranges b d nT T cancelled (.ok r) sent) :
    let S := showdowns (specRanges ranges) (maskCards b) (maskCards d)
    ∀ p < ranges.length, r.equities[p]? = some ((fdiv ((winsOf S [p] : ℚ) + sharesOf S p) (totalWeight S : ℚ)).map fl) := by
  intro S p hp
  obtain ⟨_, hsent⟩ := C70_one_batch hwf hb hd h1 htg h
  obtain ⟨r1, sent1, g1, g2, g3⟩ := C63_approx_mode hwf hb hd h
  obtain ⟨s, flag, r0, hist, sd, hrun, key, hpos⟩ := river_run hwf hb hd h5 h1 hm g1
  rw [show sent1.length - nT = nT by omega] at key
  obtain ⟨e1, e2⟩ := equity_scaled (Nat.mul_pos hT hpos) key p
  have hsum : ∑ i ∈ range (2 ^ ranges.length), r1.winsByMask i = totalWeight sd :=
    hrun.counts.1.maskSum (fun x hx => (deals_wf hwf (hrun.legal x hx).1).1) (by omega)
  rw [g2.once (by rw [hsum, e1]; exact h53), List.getElem?_map, (hrun.calc.exact_shares h8 hw).2 p hp, e2]
  rfl

/-- A quotient whose numerator and denominator are both between `q` and `q + 1` times given ones. -/
theorem ratio_near {K q q' a w A B : ℚ} (hq0 : 0 < q) (hq1 : q' ≤ q + 1) (hK : 0 < K) (hA0 : 0 ≤ a) (hW0 : 0 < w)
    (a1 : K * (q * a) ≤ A) (a2 : A ≤ K * (q' * a)) (b1 : K * (q * w) ≤ B) (b2 : B ≤ K * (q' * w)) :
    0 < B ∧ |A / B - a / w| ≤ a / w / q := by
  have hB0 : 0 < B := lt_of_lt_of_le (by positivity) b1
  refine ⟨hB0, ?_⟩
  have u1 : A ≤ K * ((q + 1) * a) := a2.trans (by gcongr)
  have u2 : B ≤ K * ((q + 1) * w) := b2.trans (by gcongr)
  rw [abs_le]
  constructor
  · have : a / w - a / w / q ≤ A / B := by
      rw [le_div_iff₀ hB0]
      by_cases hq2 : q ≤ 1
      · have h3 : a / w - a / w / q ≤ 0 := by
          rw [sub_nonpos, le_div_iff₀ hq0]
          have : 0 ≤ a / w := by positivity
          nlinarith
        have : 0 ≤ A := le_trans (by positivity) a1
        nlinarith
      · have h3 : a / w - a / w / q = a * (q - 1) / (w * q) := by field_simp
        rw [h3]
        calc a * (q - 1) / (w * q) * B ≤ a * (q - 1) / (w * q) * (K * ((q + 1) * w)) := by
              apply mul_le_mul_of_nonneg_left u2
              have : 0 ≤ q - 1 := by linarith
              positivity
          _ = K * a * (q * q - 1) / q := by field_simp; ring
          _ ≤ K * a * (q * q) / q := by gcongr; linarith
          _ = K * (q * a) := by field_simp
          _ ≤ A := a1
    linarith
  · have : A / B ≤ a / w + a / w / q := by
      rw [div_le_iff₀ hB0]
      have h3 : a / w + a / w / q = a * (q + 1) / (w * q) := by field_simp
      rw [h3]
      calc A ≤ K * ((q + 1) * a) := u1
        _ = a * (q + 1) / (w * q) * (K * (q * w)) := by field_simp
        _ ≤ a * (q + 1) / (w * q) * B := mul_le_mul_of_nonneg_left b1 (by positivity)
    linarith

/-- C79: for other numbers of deals: on a complete board with at most 4096 deals the relative error of the equities is at most one divided by
`4096 / m`, rounded down. -/
theorem C79_river_error (hwf : ∀ r ∈ ranges, WfRange r) (hb : CardMask b) (hd : CardMask d) (h5 : (maskCards b).length = 5)
    (h1 : (fromRanges (ranges.map fun h => removeConflictingCombos h b d)).length = 1)
    (h8 : ranges.length ≤ 8) (hw : WholeShares ranges b d)
    (h : ApproxEquity sqrt ranges b d nT target cancelled (.ok r) sent) (hs : nT < sent.length) :
    let S := showdowns (specRanges ranges) (maskCards b) (maskCards d)
    S.length ≤ 4096 → 0 < totalWeight S → ∀ p < ranges.length, ∃ e, r.equities[p]? = some (some e) ∧
      let e0 := ((winsOf S [p] : ℚ) + sharesOf S p) / totalWeight S
      |e - e0| ≤ e0 / ((4096 / S.length : Nat) : ℚ) := by
  intro S hle hW p hp
  obtain ⟨order, batches, s, flag, r0, hist, hrun, ho, hB⟩ := approx_rounds hwf hb hd h1 h
  obtain ⟨m1, m2⟩ := C53_multiple hwf hb hd h
  have hn : batches.length = sent.length - nT := by
    have := hrun.reports.evals
    rw [length_flatten_const fun B hm => (hB B hm).1, m2] at this
    omega
  have hSpos : 0 < S.length := by
    rw [List.length_pos_iff]
    intro e
    rw [e] at hW
    exact absurd hW (lt_irrefl _)
  have hq : 0 < 4096 / S.length := Nat.div_pos hle hSpos
  have hq' : (4096 + S.length - 1) / S.length ≤ 4096 / S.length + 1 := by
    by_cases hz : 4096 % S.length = 0
    · rw [ceil_zero hSpos hz]; omega
    · rw [ceil_pos hSpos hz]
  have hL : ∀ x ∈ batches.flatten, x ∈ showdowns (specRanges ranges) (maskCards b) (maskCards d) := fun x hx => legal_iff.1 (hrun.legal x hx)
  -- the weight and the part of the player as sums
  let f : List WHand × List Nat → ℚ := fun x => ((if winners x.2 x.1 = [p] then Spec.dealWeight x.1 else 0 : Nat) : ℚ) +
    if p ∈ winners x.2 x.1 ∧ winners x.2 x.1 ≠ [p] then (Spec.dealWeight x.1 : ℚ) / ((winners x.2 x.1).length : ℚ) else 0
  have hf : ∀ l : List (List WHand × List Nat), (l.map f).sum = (winsOf l [p] : ℚ) + sharesOf l p := by
    intro l
    unfold winsOf
    rw [weightOf_eq_sum, sharesOf_eq_sum, Nat.cast_list_sum, List.map_map, ← List.sum_map_add]
    rfl
  have hf0 : ∀ x, 0 ≤ f x := fun x => by
    have h2 : 0 ≤ if p ∈ winners x.2 x.1 ∧ winners x.2 x.1 ≠ [p] then (Spec.dealWeight x.1 : ℚ) / ((winners x.2 x.1).length : ℚ) else 0 := by
      split <;> positivity
    exact add_nonneg (Nat.cast_nonneg _) h2
  have hg : ∀ l : List (List WHand × List Nat), (l.map fun x => (Spec.dealWeight x.1 : ℚ)).sum = (totalWeight l : ℚ) := by
    intro l
    unfold totalWeight
    rw [Nat.cast_list_sum, List.map_map]
    rfl
  obtain ⟨a1, a2⟩ := river_sums h5 ho hB hL hf0
  obtain ⟨b1, b2⟩ := river_sums h5 ho hB hL (f := fun x => (Spec.dealWeight x.1 : ℚ)) (fun x => Nat.cast_nonneg _)
  rw [hf, hf] at a1 a2
  rw [hg, hg] at b1 b2
  rw [(hrun.calc.exact_shares h8 hw).2 p hp]
  change (batches.length : ℚ) * (((4096 / S.length : Nat) : ℚ) * ((winsOf S [p] : ℚ) + sharesOf S p)) ≤ _ at a1
  change _ ≤ (batches.length : ℚ) * ((((4096 + S.length - 1) / S.length : Nat) : ℚ) * ((winsOf S [p] : ℚ) + sharesOf S p)) at a2
  change (batches.length : ℚ) * (((4096 / S.length : Nat) : ℚ) * (totalWeight S : ℚ)) ≤ _ at b1
  change _ ≤ (batches.length : ℚ) * ((((4096 + S.length - 1) / S.length : Nat) : ℚ) * (totalWeight S : ℚ)) at b2
  have hA0 : 0 ≤ (winsOf S [p] : ℚ) + sharesOf S p := by
    rw [← hf]
    exact List.sum_nonneg (fun y hy => by obtain ⟨x, _, rfl⟩ := List.mem_map.1 hy; exact hf0 x)
  have hK : (0 : ℚ) < batches.length := by exact_mod_cast (by omega : 0 < batches.length)
  have hq0 : (0 : ℚ) < ((4096 / S.length : Nat) : ℚ) := by exact_mod_cast hq
  have hq1 : ((((4096 + S.length - 1) / S.length : Nat)) : ℚ) ≤ ((4096 / S.length : Nat) : ℚ) + 1 := by exact_mod_cast hq'
  have hW0 : (0 : ℚ) < totalWeight S := by exact_mod_cast hW
  obtain ⟨hB0, key⟩ := ratio_near hq0 hq1 hK hA0 hW0 a1 a2 b1 b2
  exact ⟨_, by unfold fdiv; rw [if_neg hB0.ne'], key⟩

/-! ## A release build -/

/-- C79: in a release build the counters on such a board are the exact multiples, modulo `2 ^ 64`. -/
theorem C79_release (hwf : ∀ r ∈ ranges, WfRange r) (hb : CardMask b) (hd : CardMask d) (h5 : (maskCards b).length = 5)
    (h1 : (fromRanges (ranges.map fun h => removeConflictingCombos h b d)).length = 1)
    (hm : (showdowns (specRanges ranges) (maskCards b) (maskCards d)).length ∣ 4096) (h8 : ranges.length ≤ 8)
    (h : ApproxEquityR ranges b d nT target cancelled (.ok r) sent) :
    let S := showdowns (specRanges ranges) (maskCards b) (maskCards d)
    ∀ p < ranges.length, r.wins p = (sent.length - nT) * (4096 / S.length) * winsOf S [p] % 2 ^ 64 := by
  intro S p hp
  obtain ⟨r1, sent1, g1, g2, g3⟩ := C78_follows hwf hb hd h
  rw [g2.wins, ((C79_river_counts hwf hb hd h5 h1 hm g1).2.2 h8).2 p hp, g3]

/-! ## Examples -/

/-- Eight players with the default weight: the first has aces or deuces, the second kings or sixes, and the others have pairs. -/
def turnedRanges : List (List Combo) :=
  [[⟨48, 49, 100⟩, ⟨1, 2, 100⟩], [⟨44, 45, 100⟩, ⟨16, 17, 100⟩], [⟨40, 41, 100⟩], [⟨36, 37, 100⟩], [⟨32, 33, 100⟩], [⟨28, 29, 100⟩],
    [⟨24, 25, 100⟩], [⟨20, 21, 100⟩]]

theorem turned_wf : ∀ r ∈ turnedRanges, WfRange r := by unfold WfRange turnedRanges; decide
theorem turned_deck : CardMask lostBoard := by unfold CardMask; decide

theorem turned_facts : (maskCards lostBoard).length = 5 ∧
    (∀ x ∈ showdowns (specRanges turnedRanges) (maskCards lostBoard) (maskCards 0), ∃ p < 8, winners x.2 x.1 = [p]) ∧
    (showdowns (specRanges turnedRanges) (maskCards lostBoard) (maskCards 0)).length = 4 ∧
    (List.range 8).map (fun p => winsOf (showdowns (specRanges turnedRanges) (maskCards lostBoard) (maskCards 0)) [p]) =
      [10 ^ 16, 2 * 10 ^ 16, 0, 10 ^ 16, 0, 0, 0, 0] := by decide +kernel

theorem turned_single : (fromRanges (turnedRanges.map fun h => removeConflictingCombos h lostBoard 0)).length = 1 :=
  C66_single (by decide) (by decide +kernel)

theorem turned_run : ∃ r sent, ApproxEquity id turnedRanges lostBoard 0 1 0 true (.ok r) sent ∧ r.evalCount = 4096 * 1 := by
  have hwf := turned_wf
  have hb := turned_deck
  have hv : validate turnedRanges.length lostBoard 0 = none := by decide +kernel
  have hne : deals (specRanges turnedRanges) (maskCards lostBoard ++ maskCards 0) ≠ [] := by decide +kernel
  generalize turnedRanges = rs at *
  generalize lostBoard = bd at *
  exact approx_of_deal id 0 hwf hb zero_deck hv hne 1 true

theorem turned_shares :
    let L := roundedShares ([10 ^ 16, 2 * 10 ^ 16, 0, 10 ^ 16, 0, 0, 0, 0].map fun x => (2 - 1) * (4096 / 4) * x % 2 ^ 64)
    ∃ a b c, L[0]? = some (some a) ∧ L[1]? = some (some b) ∧ L[3]? = some (some c) ∧
      454 / 1000 ≤ a ∧ a ≤ 456 / 1000 ∧ 90 / 1000 ≤ b ∧ b ≤ 91 / 1000 ∧ c = a := by
  intro L
  refine ⟨(L[0]?.getD none).getD 0, (L[1]?.getD none).getD 0, (L[3]?.getD none).getD 0, ?_⟩
  decide +kernel

/-- C79 (finding): eight players, a complete board.  The second player wins two deals of four, the first and the fourth one deal each.  A
simulation with a single thread that stops after one batch counts every deal 1024 times, so its result is exactly right in the model without
overflow: 25 %, 50 % and 25 %.  A release build reports 45.5 %, 9.0 % and 45.5 %: `2048 * 10 ^ 16` is more than `2 ^ 64`. -/
theorem C79_turned (target : ℚ) :
    (∀ cancelled r sent, ApproxEquityR turnedRanges lostBoard 0 1 target cancelled (.ok r) sent → sent.length = 2 →
      ∃ a b c, r.equities[0]? = some (some a) ∧ r.equities[1]? = some (some b) ∧ r.equities[3]? = some (some c) ∧
        454 / 1000 ≤ a ∧ a ≤ 456 / 1000 ∧ 90 / 1000 ≤ b ∧ b ≤ 91 / 1000 ∧ c = a) ∧
    ∃ r sent, ApproxEquityR turnedRanges lostBoard 0 1 target false (.ok r) sent ∧ sent.length = 2 := by
  have hwf := turned_wf
  have hb := turned_deck
  constructor
  · intro cancelled r sent h h2
    obtain ⟨f1, f2, f3, f4⟩ := turned_facts
    have hw := C79_release hwf hb zero_deck f1 turned_single (by rw [f3]; decide) (by decide) h
    simp only at hw
    rw [f3, h2] at hw
    have hq := (C78_no_ties hwf hb zero_deck f2 h).1
    have hl : turnedRanges.length = 8 := rfl
    rw [hl] at hq hw
    have e : (List.range 8).map r.wins = [10 ^ 16, 2 * 10 ^ 16, 0, 10 ^ 16, 0, 0, 0, 0].map fun x => (2 - 1) * (4096 / 4) * x % 2 ^ 64 := by
      rw [← f4, List.map_map]
      exact List.map_congr_left fun p hp => hw p (List.mem_range.1 hp)
    rw [e] at hq
    rw [hq]
    exact turned_shares
  · have h := turned_run
    generalize turnedRanges = rs at *
    generalize lostBoard = bd at *
    obtain ⟨r, sent, h, he⟩ := h
    obtain ⟨m1, m2⟩ := C53_multiple hwf hb zero_deck h
    obtain ⟨r', sent', h', ho, hs⟩ := C78_runs hwf hb zero_deck target false h
    exact ⟨r', sent', h', by omega⟩

/-- In the exact model every such run reports 25 %, 50 % and 25 %, however many batches it evaluates. -/
example (sqrt : ℚ → ℚ) (target : ℚ) (nT : Nat) (cancelled : Bool) (r : Results) (sent : List Nat)
    (h : ApproxEquity sqrt turnedRanges lostBoard 0 nT target cancelled (.ok r) sent) :
    r.wins 0 = 1024 * (sent.length - nT) * 10 ^ 16 ∧ r.wins 1 = 2 * r.wins 0 ∧ r.wins 3 = r.wins 0 := by
  obtain ⟨f1, f2, f3, f4⟩ := turned_facts
  have hw := ((C79_river_counts turned_wf turned_deck zero_deck f1 turned_single (by rw [f3]; decide) h).2.2 (by decide)).2
  rw [f3] at hw
  have e : ∀ p < 8, some (winsOf (showdowns (specRanges turnedRanges) (maskCards lostBoard) (maskCards 0)) [p]) =
      [10 ^ 16, 2 * 10 ^ 16, 0, 10 ^ 16, 0, 0, 0, 0][p]? := by
    intro p hp
    rw [← f4, List.getElem?_map, List.getElem?_range hp]
    rfl
  have e0 := Option.some.inj (e 0 (by decide))
  have e1 := Option.some.inj (e 1 (by decide))
  have e3 := Option.some.inj (e 3 (by decide))
  have w0 := hw 0 (by decide)
  have w1 := hw 1 (by decide)
  have w3 := hw 3 (by decide)
  rw [e0] at w0
  rw [e1] at w1
  rw [e3] at w3
  rw [w0, w1, w3]
  refine ⟨?_, ?_, rfl⟩ <;> ring

/-- A heads-up situation: aces or kings against queens or tens on a complete board. -/
def setRanges : List (List Combo) := [[⟨48, 49, 100⟩, ⟨44, 45, 100⟩], [⟨40, 41, 100⟩, ⟨32, 33, 100⟩]]

def setBoard : Nat := 2 ^ 0 + 2 ^ 9 + 2 ^ 22 + 2 ^ 31 + 2 ^ 34

theorem river_wf : ∀ r ∈ setRanges, WfRange r := by unfold WfRange setRanges; decide
theorem river_deck : CardMask setBoard := by unfold CardMask; decide

theorem river_facts : (maskCards setBoard).length = 5 ∧
    (showdowns (specRanges setRanges) (maskCards setBoard) (maskCards 0)).length = 4 ∧
    totalWeight (showdowns (specRanges setRanges) (maskCards setBoard) (maskCards 0)) = 40000 ∧
    winsOf (showdowns (specRanges setRanges) (maskCards setBoard) (maskCards 0)) [0] = 20000 ∧
    (∀ x ∈ showdowns (specRanges setRanges) (maskCards setBoard) (maskCards 0), (winners x.2 x.1).length = 1) := by decide +kernel

theorem river_single : (fromRanges (setRanges.map fun h => removeConflictingCombos h setBoard 0)).length = 1 :=
  C66_single (by decide) (by decide +kernel)

theorem river_run_exists (nT : Nat) (cancelled : Bool) :
    ∃ r sent, ApproxEquity id setRanges setBoard 0 nT 0 cancelled (.ok r) sent ∧ r.evalCount = 4096 * nT := by
  have hwf := river_wf
  have hb := river_deck
  have hv : validate setRanges.length setBoard 0 = none := by decide +kernel
  have hne : deals (specRanges setRanges) (maskCards setBoard ++ maskCards 0) ≠ [] := by decide +kernel
  generalize setRanges = rs at *
  generalize setBoard = bd at *
  exact approx_of_deal id 0 hwf hb zero_deck hv hne nT cancelled

/-- Every simulation of at least one batch reports exactly one half. -/
example (nT : Nat) (sqrt : ℚ → ℚ) (target : ℚ) (cancelled : Bool) (r : Results) (sent : List Nat)
    (h : ApproxEquity sqrt setRanges setBoard 0 nT target cancelled (.ok r) sent) (hs : nT < sent.length) : r.equities[0]? = some (some (1 / 2)) := by
  obtain ⟨f1, f2, f3, f4, f5⟩ := river_facts
  have hw : WholeShares setRanges setBoard 0 := fun x hx => by rw [f5 x hx]; exact one_dvd _
  have hz : sharesOf (showdowns (specRanges setRanges) (maskCards setBoard) (maskCards 0)) 0 = 0 := by
    rw [sharesOf_eq_sum]
    apply List.sum_eq_zero
    intro y hy
    obtain ⟨x, hx, rfl⟩ := List.mem_map.1 hy
    rw [if_neg]
    rintro ⟨h1, h2⟩
    obtain ⟨q, hq⟩ := List.length_eq_one_iff.1 (f5 x hx)
    rw [hq, List.mem_singleton] at h1
    exact h2 (by rw [hq, h1])
  rw [C79_river_equities river_wf river_deck zero_deck f1 river_single (by rw [f2]; decide) (by decide) hw h hs 0 (by decide), hz, f3, f4]
  norm_num [fdiv]

/-- There are such simulations. -/
example : ∃ r sent, ApproxEquity id setRanges setBoard 0 4 0 false (.ok r) sent ∧ 4 < sent.length := by
  have h := river_run_exists 4 false
  have hwf := river_wf
  have hb := river_deck
  generalize setRanges = rs at *
  generalize setBoard = bd at *
  obtain ⟨r, sent, h, he⟩ := h
  obtain ⟨_, m2⟩ := C53_multiple hwf hb zero_deck h
  exact ⟨r, sent, h, by omega⟩

end Pokers
