import Verif.Proofs.Work
import Verif.Props.Totals
import Verif.Props.McMean
/-!
# C95: how much work the exact calculation does

The number of evaluations is between the number of deals and the number of showdowns.  Every merge of the counters but the last
one of each thread brings at least 10000 evaluations.  Once the token is set, each thread adds at most 9999 evaluations and
those of one deal.
-/
namespace Pokers
open Spec CombinedRange

variable {ranges : List (List Combo)} {b d nT : Nat} {cancelled stopped : Bool} {r : Results} {sent : List Nat}

/-- The number of boards that complete a deal of `n` players. -/
def boardsPerDeal (b d n : Nat) : Nat :=
  (((List.range 52).filter fun c => c ∉ maskCards b ++ maskCards d).length - 2 * n).choose (5 - (maskCards b).length)

theorem showdowns_count (hwf : ∀ r ∈ ranges, WfRange r) :
    (showdowns (specRanges ranges) (maskCards b) (maskCards d)).length =
      (deals (specRanges ranges) (maskCards b ++ maskCards d)).length * boardsPerDeal b d ranges.length := by
  unfold showdowns
  rw [List.length_flatMap]
  have : ((deals (specRanges ranges) (maskCards b ++ maskCards d)).map fun dd =>
      ((boards (maskCards b) (maskCards d) dd).map fun B => (dd, B)).length) =
      (deals (specRanges ranges) (maskCards b ++ maskCards d)).map fun _ => boardsPerDeal b d ranges.length := by
    apply List.map_congr_left
    intro dd hdd
    rw [List.length_map, boards_length hwf hdd]
    rfl
  rw [this, List.map_const', List.sum_replicate, smul_eq_mul]

section
variable {s : Sim} {ds : List DividerU64} {total size : Nat}

/-- The evaluations of one position. -/
theorem Ready.evals_pos (h : Ready ranges b d s ds total size) {p : Nat} (hp : p < total) :
    (posFull s ds p).2 ≤ boardsPerDeal b d ranges.length ∧
    (posDeal s ds p).toList.length * boardsPerDeal b d ranges.length ≤ 4 ^ (5 - (maskCards b).length) * (posFull s ds p).2 := by
  obtain ⟨h1, h2, h3, h4, _⟩ := h.fields
  have e0 : ∀ o, s.decode ds p = o → posFull s ds p = trunc s.nPlayers (match o with
    | some (some x) => dealFull s x
    | _ => 0) := fun o ho => by subst ho; rfl
  unfold posDeal
  cases hdec : s.decode ds p with
  | none =>
    rw [e0 _ hdec]
    exact ⟨Nat.zero_le _, by simp⟩
  | some o =>
    cases o with
    | none =>
      rw [e0 _ hdec]
      exact ⟨Nat.zero_le _, by simp⟩
    | some x =>
      obtain ⟨dd, hdd, hx⟩ := h.decode_mem hp hdec
      have hl := (deals_wf h.wf hdd).1
      have hs := boardEvents_lengths (h.dealOk hdd) (ph := x.2)
        (fun i hi => by rw [hx]; exact assign_get dd _ hi) (used := x.1)
        (fun c hc => by rw [hx]; exact used_testBit b d dd hc) (Sim.dealWeight s.nPlayers x.2)
      have e2 : (posFull s ds p).2 = (boardEvents s.nPlayers x.2 (Sim.dealWeight s.nPlayers x.2) s.fixedBoard x.1).length := by
        rw [e0 _ hdec]
        rfl
      rw [boards_length h.wf hdd] at hs
      rw [e2]
      rw [h1, ← hl] at hs ⊢
      rw [h4]
      show _ ∧ 1 * _ ≤ _
      rw [one_mul]
      refine ⟨hs.1.trans (le_of_eq ?_), (le_of_eq ?_).trans hs.2⟩ <;> (unfold boardsPerDeal; rw [hl])

theorem Ready.evals_sum (h : Ready ranges b d s ds total size) (L : List Nat) (hL : ∀ p ∈ L, p < total) :
    (L.filterMap (posDeal s ds)).length * boardsPerDeal b d ranges.length ≤
      4 ^ (5 - (maskCards b).length) * (sumOf (posFull s ds) (L : Multiset Nat)).2 := by
  induction L with
  | nil => simp
  | cons p L ih =>
    have e : sumOf (posFull s ds) ((p :: L : List Nat) : Multiset Nat) = posFull s ds p + sumOf (posFull s ds) (L : Multiset Nat) := by
      unfold sumOf
      rw [← Multiset.cons_coe, Multiset.map_cons, Multiset.sum_cons]
    have h1 := (h.evals_pos (hL p (by simp))).2
    have h2 := ih (fun q hq => hL q (by simp [hq]))
    have e2 : ((p :: L).filterMap (posDeal s ds)).length = (posDeal s ds p).toList.length + (L.filterMap (posDeal s ds)).length := by
      rw [List.filterMap_cons]
      cases posDeal s ds p with
      | none => simp
      | some x => simp [Nat.add_comm]
    rw [e, e2, Nat.add_mul]
    show _ ≤ _ * ((posFull s ds p).2 + _)
    rw [Nat.mul_add]
    exact Nat.add_le_add h1 h2

/-- A legal deal is evaluated at least once if enough cards are left for a board. -/
theorem Ready.deals_sum (h : Ready ranges b d s ds total size) (hN : 0 < boardsPerDeal b d ranges.length) (L : List Nat)
    (hL : ∀ p ∈ L, p < total) : (L.filterMap (posDeal s ds)).length ≤ (sumOf (posFull s ds) (L : Multiset Nat)).2 := by
  induction L with
  | nil => exact le_rfl
  | cons p L ih =>
    have e : sumOf (posFull s ds) ((p :: L : List Nat) : Multiset Nat) = posFull s ds p + sumOf (posFull s ds) (L : Multiset Nat) := by
      unfold sumOf
      rw [← Multiset.cons_coe, Multiset.map_cons, Multiset.sum_cons]
    have h1 := (h.evals_pos (hL p (by simp))).2
    have h2 := ih (fun q hq => hL q (by simp [hq]))
    rw [e, List.filterMap_cons]
    show _ ≤ (posFull s ds p).2 + _
    cases hd : posDeal s ds p with
    | none => simp only; omega
    | some x =>
      rw [hd] at h1
      simp only [Option.toList_some, List.length_singleton, one_mul] at h1
      simp only [List.length_cons]
      have : (posFull s ds p).2 ≠ 0 := by
        intro h0
        rw [h0] at h1
        omega
      omega

end

/-- C95: there is at most one evaluation for every showdown, however the run is cancelled. -/
theorem C95_evals_le (hwf : ∀ r ∈ ranges, WfRange r) (hb : CardMask b) (hd : CardMask d)
    (h : ExactEquity ranges b d nT cancelled stopped (.ok r) sent) :
    r.evalCount ≤ (showdowns (specRanges ranges) (maskCards b) (maskCards d)).length := by
  obtain ⟨s, ds, total, size, flag, r0, hist, D, hrun, hlen⟩ := exact_run hwf hb hd h
  have hfull : r.evalCount = (sumOf (posFull s ds) D).2 := congrArg Prod.snd hrun.full
  have hsub := hrun.sub
  obtain ⟨L, rfl⟩ := Quot.exists_rep D
  have hL : L.Subperm (List.range total) := by
    rw [← Multiset.coe_range] at hsub
    exact Multiset.coe_le.1 hsub
  have hmem : ∀ p ∈ L, p < total := fun p hp => List.mem_range.1 (hL.subset hp)
  rw [hfull]
  refine (hrun.ready.evals_le L hmem).trans ?_
  obtain ⟨h1, h2, h3, _⟩ := hrun.ready.fields
  rw [posShows_flatMap, h2, h3]
  have hsub2 : (L.filterMap (posDeal s ds)).Subperm (deals (specRanges ranges) (maskCards b ++ maskCards d)) := by
    obtain ⟨l, hl1, hl2⟩ := hL
    have : (L.filterMap (posDeal s ds)).Subperm ((List.range total).filterMap (posDeal s ds)) :=
      ⟨l.filterMap (posDeal s ds), hl1.filterMap _, hl2.filterMap _⟩
    exact this.trans (posDeals hrun.ready).subperm
  unfold showdowns
  rw [List.length_flatMap, List.length_flatMap]
  obtain ⟨l, hl1, hl2⟩ := hsub2
  rw [← (hl1.map _).sum_eq]
  exact (hl2.map _).sum_le_sum fun _ _ => Nat.zero_le _

/-- C95: without cancellation there is at least one evaluation for every deal (if enough cards are left for a board), and an
evaluation stands for at most four showdowns for each card that is missing on the board. -/
theorem C95_evals_ge (hwf : ∀ r ∈ ranges, WfRange r) (hb : CardMask b) (hd : CardMask d) (hT : 0 < nT)
    (h : ExactEquity ranges b d nT cancelled false (.ok r) sent) :
    (0 < boardsPerDeal b d ranges.length → (deals (specRanges ranges) (maskCards b ++ maskCards d)).length ≤ r.evalCount) ∧
    (showdowns (specRanges ranges) (maskCards b) (maskCards d)).length ≤ 4 ^ (5 - (maskCards b).length) * r.evalCount := by
  obtain ⟨s, ds, total, size, flag, r0, hist, D, hrun, hlen⟩ := exact_run hwf hb hd h
  have hfull : r.evalCount = (sumOf (posFull s ds) D).2 := congrArg Prod.snd hrun.full
  rw [hfull, hrun.all hT rfl, ← Multiset.coe_range, showdowns_count hwf, ← (posDeals hrun.ready).length_eq]
  exact ⟨fun hN => hrun.ready.deals_sum hN _ (fun p hp => List.mem_range.1 hp),
    hrun.ready.evals_sum _ (fun p hp => List.mem_range.1 hp)⟩

/-- C95: on a complete board there is exactly one evaluation for every deal. -/
theorem C95_complete (hwf : ∀ r ∈ ranges, WfRange r) (hb : CardMask b) (hd : CardMask d) (hT : 0 < nT)
    (h5 : (maskCards b).length = 5) (h : ExactEquity ranges b d nT cancelled false (.ok r) sent) :
    r.evalCount = (deals (specRanges ranges) (maskCards b ++ maskCards d)).length := by
  have hN : boardsPerDeal b d ranges.length = 1 := by
    unfold boardsPerDeal
    rw [h5, Nat.choose_zero_right]
  have h1 := C95_evals_le hwf hb hd h
  rw [showdowns_count hwf, hN, mul_one] at h1
  exact le_antisymm h1 ((C95_evals_ge hwf hb hd hT h).1 (by omega))

/-- C95: the callback is called by each thread at its end and otherwise once for at least 10000 evaluations; no call stands for
more than 9999 evaluations and those of one deal.  This holds however the run is cancelled. -/
theorem C95_messages (hwf : ∀ r ∈ ranges, WfRange r) (hb : CardMask b) (hd : CardMask d)
    (h : ExactEquity ranges b d nT cancelled stopped (.ok r) sent) :
    nT ≤ sent.length ∧ 10000 * (sent.length - nT) ≤ r.evalCount ∧
    r.evalCount ≤ (9999 + boardsPerDeal b d ranges.length) * sent.length := by
  unfold ExactEquity at h
  split at h
  · exact absurd h.1 (by simp)
  · rename_i s hok
    obtain ⟨r0, flag, ds, total, size, w, h1, h2, h3, h4, h5, h6, h7, h8, h9⟩ := h
    have hR : Ready ranges b d s ds total size := ⟨hwf, hb, hd, hok, h2, h3, h4⟩
    have hr : r = finishResults s flag w.shared.results := by simpa using h7
    have hev := (finishResults_counts s flag w.shared.results).2.2.2.1
    rw [← hr] at hev
    have h00 : r0.evalCount = 0 := congrArg Prod.snd (startResults_counts h1).2.2.1
    obtain ⟨m1, m2, m3⟩ := h5.merges hR.processes hR.size_pos (fun p hp => (hR.evals_pos hp).1) h00
    have he : ended w nT = nT := by
      unfold ended
      rw [Finset.sum_congr rfl (g := fun _ => 1) (fun t ht => by rw [h6 t (Finset.mem_range.1 ht)]; rfl)]
      simp
    rw [he, ← h8] at m1 m2
    rw [← h8] at m3
    rw [hev]
    exact ⟨m2, by omega, m3⟩

/-- C95: once the token is set, each thread adds at most 9999 evaluations and those of one deal to the results. -/
theorem C95_prompt {s : Sim} {ds : List DividerU64} {total size : Nat} (h : Ready ranges b d s ds total size) {r0 : Results}
    {w v : World} (h0 : Steps s ds total size nT (World.init s r0 cancelled) w) (hst : w.shared.stopped = true)
    (hv : Steps s ds total size nT w v) :
    v.shared.results.evalCount ≤ w.shared.results.evalCount + nT * (9999 + boardsPerDeal b d ranges.length) := by
  have hB : ∀ p < total, (posFull s ds p).2 ≤ boardsPerDeal b d ranges.length := fun p hp => (h.evals_pos hp).1
  have h1 := Steps.work_left h.processes h.size_pos hB h0 hst hv
  have h2 : ∑ t ∈ Finset.range nT, threadEvals (boardsPerDeal b d ranges.length) (w.locals t) ≤
      ∑ _t ∈ Finset.range nT, (9999 + boardsPerDeal b d ranges.length) :=
    Finset.sum_le_sum fun t ht => (Steps.load h.processes h.size_pos hB h0 t (Finset.mem_range.1 ht)).left
  rw [Finset.sum_const, Finset.card_range, smul_eq_mul] at h2
  omega

/-- C95: a calculation that is cancelled before it starts makes at most 9999 evaluations and those of one deal on each thread. -/
theorem C95_cancelled (hwf : ∀ r ∈ ranges, WfRange r) (hb : CardMask b) (hd : CardMask d)
    (h : ExactEquity ranges b d nT true stopped (.ok r) sent) :
    r.evalCount ≤ nT * (9999 + boardsPerDeal b d ranges.length) := by
  unfold ExactEquity at h
  split at h
  · exact absurd h.1 (by simp)
  · rename_i s hok
    obtain ⟨r0, flag, ds, total, size, w, h1, h2, h3, h4, h5, h6, h7, h8, h9⟩ := h
    have hR : Ready ranges b d s ds total size := ⟨hwf, hb, hd, hok, h2, h3, h4⟩
    have hr : r = finishResults s flag w.shared.results := by simpa using h7
    have hev := (finishResults_counts s flag w.shared.results).2.2.2.1
    rw [← hr] at hev
    have h00 : r0.evalCount = 0 := congrArg Prod.snd (startResults_counts h1).2.2.1
    have := C95_prompt hR (r0 := r0) (cancelled := true) Steps.refl rfl h5
    have e : (World.init s r0 true).shared.results.evalCount = 0 := h00
    omega

/-- C95: with fewer than 10000 showdowns every thread merges its counters exactly once, at its end: the callback is called once by
each thread, and the token has no effect. -/
theorem C95_short (hwf : ∀ r ∈ ranges, WfRange r) (hb : CardMask b) (hd : CardMask d)
    (hk : (showdowns (specRanges ranges) (maskCards b) (maskCards d)).length < 10000)
    (h : ExactEquity ranges b d nT cancelled stopped (.ok r) sent) :
    sent.length = nT ∧ ExactEquity ranges b d nT false false (.ok r) sent := by
  have h1 := C95_evals_le hwf hb hd h
  obtain ⟨m1, m2, _⟩ := C95_messages hwf hb hd h
  exact ⟨by omega, C44_short_runs h (by omega)⟩

/-- Aces against kings on a flop: 990 boards are grouped into at least 62 evaluations; every thread reports once, and the token
has no effect. -/
example (nT : Nat) (hT : 0 < nT) : ∃ r sent, ExactEquity twoHands flopMask 0 nT true true (.ok r) sent ∧
    62 ≤ r.evalCount ∧ r.evalCount ≤ 990 ∧ sent.length = nT := by
  obtain ⟨r, sent, h⟩ := two_run nT true
  have hwf : ∀ r ∈ twoHands, WfRange r := by unfold WfRange twoHands; decide
  have hb : CardMask flopMask := by unfold CardMask; decide
  have hd : CardMask 0 := by unfold CardMask; decide
  have hc : (showdowns (specRanges twoHands) (maskCards flopMask) (maskCards 0)).length = 990 := by decide +kernel
  obtain ⟨h1, h2⟩ := C95_short hwf hb hd (by omega) h
  have h3 := C95_evals_le hwf hb hd h
  have h4 := (C95_evals_ge hwf hb hd hT h2).2
  have h5 : (maskCards flopMask).length = 3 := by decide +kernel
  rw [hc, h5] at h4
  rw [hc] at h3
  exact ⟨r, sent, h, by omega, h3, h1⟩

/-- On a complete board with one deal there is one evaluation. -/
example (nT : Nat) (hT : 0 < nT) : ∃ r sent, ExactEquity chopHands royalMask 0 nT true true (.ok r) sent ∧ r.evalCount = 1 := by
  obtain ⟨r, sent, h⟩ := chop_run nT true
  refine ⟨r, sent, h, ?_⟩
  rw [C95_complete chop_wf royal_deck zero_deck hT (by decide +kernel)
    (C95_short chop_wf royal_deck zero_deck (by decide +kernel) h).2]
  decide +kernel

/-- The number of boards of one deal before the flop with two players. -/
example : boardsPerDeal 0 0 2 = 1712304 := by decide +kernel

end Pokers
