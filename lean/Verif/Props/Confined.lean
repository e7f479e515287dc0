import Verif.Proofs.Confined
import Verif.Proofs.McChoice
import Verif.Props.Accuracy
import Verif.Props.Combining
import Verif.Proofs.ApartHands
/-!
# What the random simulation reaches from its first deal (C90)

With several combined ranges a step of the random walk deals new hands to the players of one combined range; the others keep theirs
(src/equity_calculator/simulator.rs:1052-1074).  Only after 4096 evaluations all players get new hands (simulator.rs:1039-1049).  So what cannot be
reached by changing the hands of one combined range at a time does not occur in a batch.
-/
namespace Pokers
open Spec
open CombinedRange

variable {sqrt : ℚ → ℚ} {ranges : List (List Combo)} {b d nT : Nat} {target : ℚ} {cancelled : Bool} {r : Results} {sent : List Nat}

/-- The groups of players whose ranges are combined. -/
def groups (ranges : List (List Combo)) (b d : Nat) : List (List Nat) :=
  (fromRanges (ranges.map fun h => removeConflictingCombos h b d)).map playersOf

theorem McReady.groups {s : Sim} (h : McReady ranges b d s) : groupsOf s = groups ranges b d := by
  obtain ⟨s0, h1, h2, _⟩ := h.exact
  have hcr : s0.combinedRanges = fromRanges (ranges.map fun h => removeConflictingCombos h b d) := by rw [(prepareExact_ok h1).sim]; rfl
  unfold groupsOf Pokers.groups
  rw [← hcr]
  refine List.ext_getElem (by rw [List.length_map, List.length_map, h2.length_eq]) fun i g1 g2 => ?_
  rw [List.getElem_map, List.getElem_map]
  have := (List.forall₂_iff_get.1 h2).2 i (by simpa using g2) (by simpa using g1)
  unfold playersOf
  rw [show s.combinedRanges[i]'(by simpa using g1) = s.combinedRanges.get ⟨i, by simpa using g1⟩ from rfl, this.1, this.2.1]
  rfl

/-! ## Batches -/

theorem approx_paths (hwf : ∀ r ∈ ranges, WfRange r) (hb : CardMask b) (hd : CardMask d)
    (h : ApproxEquity sqrt ranges b d nT target cancelled (.ok r) sent) :
    ∃ (batches : List (List (List WHand × List Nat))) (s : Sim) (flag : Nat) (r0 : Results) (hist : List (Batch × HandStats)),
      McRun sqrt ranges b d r s flag r0 hist batches.flatten ∧ batches.length + nT = sent.length ∧
      ∀ B ∈ batches, B.length = 4096 ∧ (B.map Prod.fst).IsChain (OneGroup (groups ranges b d)) := by
  obtain ⟨m1, m2⟩ := C53_multiple hwf hb hd h
  obtain ⟨p, hp, h⟩ := h
  cases p with
  | error e => cases h.1
  | ok s =>
    obtain ⟨r0, flag, w, g1, g2, g3, g4, g5⟩ := h
    have hr : McReady ranges b d s := ⟨hwf, hb, hd, hp⟩
    obtain ⟨hist, Dr, Dl, hi, batches, rfl, hB⟩ := McInv.steps_paths hr g2
    injection g4 with g4
    rw [hr.groups] at hB
    have hrun : McRun sqrt ranges b d r s flag r0 hist batches.flatten :=
      ⟨hr, g1, by rw [g4, hi.res], hi.hids, hi.hbatch, hi.hsum, hi.hcount, hi.legalR⟩
    refine ⟨batches, s, flag, r0, hist, hrun, ?_, hB⟩
    have := hrun.reports.evals
    rw [length_flatten_const fun B hm => (hB B hm).1, m2] at this
    omega

/-- C90: the results consist of batches of 4096 showdowns, in each of which from one showdown to the next at most the hands of the players of one
combined range change.  Each message to the callback but one per thread belongs to a batch. -/
theorem C90_batches (hwf : ∀ r ∈ ranges, WfRange r) (hb : CardMask b) (hd : CardMask d)
    (h : ApproxEquity sqrt ranges b d nT target cancelled (.ok r) sent) :
    ∃ batches : List (List (List WHand × List Nat)),
      (∀ B ∈ batches, B.length = 4096 ∧ (B.map Prod.fst).IsChain (OneGroup (groups ranges b d)) ∧
        ∀ x ∈ B, x ∈ showdowns (specRanges ranges) (maskCards b) (maskCards d)) ∧
      batches.length + nT = sent.length ∧ Reports ranges.length r batches.flatten := by
  obtain ⟨batches, s, flag, r0, hist, hrun, hn, hB⟩ := approx_paths hwf hb hd h
  exact ⟨batches, fun B hm => ⟨(hB B hm).1, (hB B hm).2, fun x hx => legal_iff.1 (hrun.legal x (List.mem_flatten.2 ⟨B, hm, hx⟩))⟩, hn, hrun.reports⟩

theorem confined {P : List WHand → Prop} (hP : Kept (groups ranges b d) (deals (specRanges ranges) (maskCards b ++ maskCards d)) P)
    {B : List (List WHand × List Nat)} (hc : (B.map Prod.fst).IsChain (OneGroup (groups ranges b d)))
    (hl : ∀ x ∈ B, Pokers.Legal ranges b d x) : (∀ x ∈ B, P x.1) ∨ ∀ x ∈ B, ¬ P x.1 := by
  by_cases h : ∀ x ∈ B, P x.1
  · exact Or.inl h
  · right
    push Not at h
    obtain ⟨x, hx, hn⟩ := h
    intro y hy hyP
    exact hn ((hP.chain (xs := B.map Prod.fst) (fun z hz => by
      obtain ⟨u, hu, rfl⟩ := List.mem_map.1 hz
      exact (hl u hu).1) hc _ (List.mem_map_of_mem hy) _ (List.mem_map_of_mem hx)).1 hyP)

/-- C90: a property of the deals that no change of the hands of one combined range affects holds in all or in none of the showdowns of a batch. -/
theorem C90_confined (hwf : ∀ r ∈ ranges, WfRange r) (hb : CardMask b) (hd : CardMask d) {P : List WHand → Prop}
    (hP : Kept (groups ranges b d) (deals (specRanges ranges) (maskCards b ++ maskCards d)) P)
    (h : ApproxEquity sqrt ranges b d nT target cancelled (.ok r) sent) :
    ∃ batches : List (List (List WHand × List Nat)),
      (∀ B ∈ batches, B.length = 4096 ∧ ((∀ x ∈ B, P x.1) ∨ ∀ x ∈ B, ¬ P x.1) ∧
        ∀ x ∈ B, x ∈ showdowns (specRanges ranges) (maskCards b) (maskCards d)) ∧
      batches.length + nT = sent.length ∧ Reports ranges.length r batches.flatten := by
  obtain ⟨batches, s, flag, r0, hist, hrun, hn, hB⟩ := approx_paths hwf hb hd h
  have hl : ∀ B ∈ batches, ∀ x ∈ B, Pokers.Legal ranges b d x := fun B hm x hx => hrun.legal x (List.mem_flatten.2 ⟨B, hm, hx⟩)
  exact ⟨batches, fun B hm => ⟨(hB B hm).1, confined hP (hB B hm).2 (hl B hm), fun x hx => legal_iff.1 (hl B hm x hx)⟩, hn, hrun.reports⟩

/-- C90: how likely a batch is to have the property: of the lists of indexes that `randomize_hole_cards` can draw, which are equally likely, as
many lead to a deal with the property as there are such deals. -/
theorem C90_chance {s : Sim} (h : McReady ranges b d s) (P : List WHand → Prop) [DecidablePred P] :
    let X := legalIdxs s.combinedRanges (b ||| d)
    let D := deals (specRanges ranges) (maskCards b ++ maskCards d)
    X.length = D.length ∧ (X.countP fun x => decide (P (dealAt s x))) = D.countP fun dd => decide (P dd) := by
  intro X D
  have := h.dealAt_perm
  refine ⟨by rw [← this.length_eq, List.length_map], ?_⟩
  rw [← this.countP_eq, List.countP_map]
  rfl

/-- C90: all first deals are possible: for any deals and boards there is a run in which thread `t` begins with the deal `first t`. -/
theorem C90_runs (sqrt : ℚ → ℚ) (target : ℚ) (hwf : ∀ r ∈ ranges, WfRange r) (hb : CardMask b) (hd : CardMask d)
    (hv : validate ranges.length b d = none) (nT : Nat) (cancelled : Bool) (first : Nat → List WHand)
    (hfirst : ∀ t, first t ∈ deals (specRanges ranges) (maskCards b ++ maskCards d)) (f : Nat → Nat → List WHand → List Nat)
    (hf : ∀ t i, ∀ dd ∈ deals (specRanges ranges) (maskCards b ++ maskCards d), f t i dd ∈ Spec.boards (maskCards b) (maskCards d) dd) :
    ∃ r sent, ∃ ds : Nat → List (List WHand), ApproxEquity sqrt ranges b d nT target cancelled (.ok r) sent ∧ sent.length = 2 * nT ∧
      (∀ t < nT, (ds t).length = 4096 ∧ (∀ dd ∈ ds t, dd ∈ deals (specRanges ranges) (maskCards b ++ maskCards d)) ∧
        (ds t).IsChain (OneGroup (groups ranges b d)) ∧ (ds t).head? = some (first t)) ∧
      Reports ranges.length r ((List.range nT).flatMap fun t => (ds t).mapIdx fun i dd => (dd, f t i dd)) := by
  have hne : deals (specRanges ranges) (maskCards b ++ maskCards d) ≠ [] := List.ne_nil_of_mem (hfirst 0)
  obtain ⟨s0, hs0⟩ := prepare_of_deal hwf hb hd hv hne
  obtain ⟨s, hp⟩ := C39_approx_ok hs0
  have hg := McReady.groups (ranges := ranges) (b := b) (d := d) ⟨hwf, hb, hd, hp⟩
  obtain ⟨r, sent, flag, r0, hist, ds, h1, h2, h3, h4⟩ := exists_path sqrt target hwf hb hd hp nT cancelled first hfirst f hf
  refine ⟨r, sent, ds, h1, h2, fun t ht => ?_, h4.reports⟩
  rw [← hg]
  exact h3 t ht

/-! ## The consequences for the equities -/

/-- Sums over batches each of which has the property throughout or nowhere. -/
theorem sum_batches {P : List WHand → Prop} [DecidablePred P] {f : List WHand × List Nat → ℚ} {u v : ℚ} :
    ∀ batches : List (List (List WHand × List Nat)), (∀ B ∈ batches, B.length = 4096 ∧ ((∀ x ∈ B, P x.1) ∨ ∀ x ∈ B, ¬ P x.1)) →
      (∀ B ∈ batches, ∀ x ∈ B, f x = if P x.1 then u else v) →
      (batches.flatten.map f).sum = 4096 * ((batches.countP fun B => decide (∀ x ∈ B, P x.1) : Nat) * u +
        ((batches.length : ℚ) - (batches.countP fun B => decide (∀ x ∈ B, P x.1) : Nat)) * v) := by
  intro batches
  induction batches with
  | nil => intro _ _; simp
  | cons B batches ih =>
    intro h1 h2
    rw [List.flatten_cons, List.map_append, List.sum_append, ih (fun B hB => h1 B (by simp [hB])) fun B hB => h2 B (by simp [hB]), List.countP_cons,
      List.length_cons]
    obtain ⟨g1, g2⟩ := h1 B (by simp)
    by_cases hB : ∀ x ∈ B, P x.1
    · have : B.map f = List.replicate 4096 u := by
        rw [List.eq_replicate_iff]
        refine ⟨by rw [List.length_map, g1], fun y hy => ?_⟩
        obtain ⟨x, hx, rfl⟩ := List.mem_map.1 hy
        rw [h2 B (by simp) x hx, if_pos (hB x hx)]
      rw [this, if_pos (by simpa using hB)]
      simp only [List.sum_replicate, nsmul_eq_mul]
      push_cast
      ring
    · have hn := g2.resolve_left hB
      have : B.map f = List.replicate 4096 v := by
        rw [List.eq_replicate_iff]
        refine ⟨by rw [List.length_map, g1], fun y hy => ?_⟩
        obtain ⟨x, hx, rfl⟩ := List.mem_map.1 hy
        rw [h2 B (by simp) x hx, if_neg (hn x hx)]
      rw [this, if_neg (by simpa using hB)]
      simp only [List.sum_replicate, nsmul_eq_mul]
      push_cast
      ring

/-- In the deals with the property player `p` wins alone and the weight is `w`; in the others another player wins alone and the weight is `v`. -/
structure Decided (ranges : List (List Combo)) (b d : Nat) (P : List WHand → Prop) (p w v : Nat) : Prop where
  kept : Kept (groups ranges b d) (deals (specRanges ranges) (maskCards b ++ maskCards d)) P
  inside : ∀ x ∈ showdowns (specRanges ranges) (maskCards b) (maskCards d), P x.1 → winners x.2 x.1 = [p] ∧ Spec.dealWeight x.1 = w
  outside : ∀ x ∈ showdowns (specRanges ranges) (maskCards b) (maskCards d), ¬ P x.1 →
    (∃ q, q ≠ p ∧ winners x.2 x.1 = [q]) ∧ Spec.dealWeight x.1 = v

theorem Decided.whole {P : List WHand → Prop} {p w v : Nat} (h : Decided ranges b d P p w v) : WholeShares ranges b d := by
  intro x hx
  by_cases hP : P x.1
  · rw [(h.inside x hx hP).1]; exact one_dvd _
  · obtain ⟨⟨q, _, e⟩, _⟩ := h.outside x hx hP
    rw [e]; exact one_dvd _

/-- What the batches sum up to: `m` of `K` have the property. -/
theorem decided_run (hwf : ∀ r ∈ ranges, WfRange r) (h8 : ranges.length ≤ 8) {P : List WHand → Prop} [DecidablePred P]
    {p w v : Nat} (hp : p < ranges.length) (hw : 0 < w) (hv : 0 < v) (hD : Decided ranges b d P p w v)
    {batches : List (List (List WHand × List Nat))} {s : Sim} {flag : Nat} {r0 : Results} {hist : List (Batch × HandStats)}
    (hrun : McRun sqrt ranges b d r s flag r0 hist batches.flatten) (hK : 0 < batches.length)
    (hB : ∀ B ∈ batches, B.length = 4096 ∧ (B.map Prod.fst).IsChain (OneGroup (groups ranges b d))) :
    let m := batches.countP fun B => decide (∀ x ∈ B, P x.1)
    r.equities[p]? = some (some ((m * w : ℚ) / (m * w + (batches.length - m) * v))) ∧
      ∑ i ∈ Finset.range (2 ^ ranges.length), (r.winsByMask i : ℚ) = 4096 * (m * w + (batches.length - m) * v) := by
  intro m
  have hl : ∀ B ∈ batches, ∀ x ∈ B, Pokers.Legal ranges b d x := fun B hm x hx => hrun.legal x (List.mem_flatten.2 ⟨B, hm, hx⟩)
  have hB' : ∀ B ∈ batches, B.length = 4096 ∧ ((∀ x ∈ B, P x.1) ∨ ∀ x ∈ B, ¬ P x.1) :=
    fun B hm => ⟨(hB B hm).1, confined hD.kept (hB B hm).2 (hl B hm)⟩
  have hwin := sum_batches (P := P) (f := winning p) (u := w) (v := 0) batches hB' fun B hm x hx => by
    have hx' := legal_iff.1 (hl B hm x hx)
    unfold winning
    by_cases hP : P x.1
    · obtain ⟨e1, e2⟩ := hD.inside x hx' hP
      rw [if_pos hP, e1, e2]; simp
    · obtain ⟨⟨q, hq, e1⟩, e2⟩ := hD.outside x hx' hP
      rw [if_neg hP, e1, e2]; simp [hq.symm]
  have htot := sum_batches (P := P) (f := fun x => (Spec.dealWeight x.1 : ℚ)) (u := w) (v := v) batches hB' fun B hm x hx => by
    have hx' := legal_iff.1 (hl B hm x hx)
    by_cases hP : P x.1
    · rw [if_pos hP, (hD.inside x hx' hP).2]
    · rw [if_neg hP, (hD.outside x hx' hP).2]
  have htw : (totalWeight batches.flatten : ℚ) = (batches.flatten.map fun x => (Spec.dealWeight x.1 : ℚ)).sum := by
    unfold totalWeight
    rw [Nat.cast_list_sum, List.map_map]
    rfl
  have hmK : (batches.countP fun B => decide (∀ x ∈ B, P x.1)) ≤ batches.length := List.countP_le_length
  refine ⟨?_, ?_⟩
  · rw [(hrun.calc.exact_shares h8 hD.whole).2 p hp, ← winning_sum, hwin, htw, htot]
    show some (fdiv (4096 * ((m : ℚ) * w + ((batches.length : ℚ) - m) * 0)) (4096 * ((m : ℚ) * w + ((batches.length : ℚ) - m) * v))) = _
    have hmK' : (m : ℚ) ≤ batches.length := by exact_mod_cast hmK
    have hK' : (0 : ℚ) < batches.length := by exact_mod_cast hK
    have hw' : (0 : ℚ) < w := by exact_mod_cast hw
    have hv' : (0 : ℚ) < v := by exact_mod_cast hv
    have hm0 : (0 : ℚ) ≤ m := Nat.cast_nonneg _
    generalize (m : ℚ) = m at *
    generalize (batches.length : ℚ) = K at *
    have hpos : 0 < m * w + (K - m) * v := by
      rcases lt_or_eq_of_le hm0 with h | h
      · have := mul_pos h hw'
        have := mul_nonneg (sub_nonneg.2 hmK') hv'.le
        linarith
      · rw [← h]; simpa using mul_pos hK' hv'
    rw [fdiv, if_neg (by positivity)]
    congr 2
    rw [mul_zero, add_zero, mul_div_mul_left _ _ (by norm_num)]
  · have := hrun.counts.1.maskSum (fun x hx => (deals_wf hwf (hrun.legal x hx).1).1) (by omega)
    rw [← htot, ← htw, ← this]
    push_cast
    rfl

theorem decided_batches (hwf : ∀ r ∈ ranges, WfRange r) (hb : CardMask b) (hd : CardMask d) (h8 : ranges.length ≤ 8) {P : List WHand → Prop}
    {p w v : Nat} (hp : p < ranges.length) (hw : 0 < w) (hv : 0 < v) (hD : Decided ranges b d P p w v) (hs : nT < sent.length)
    (h : ApproxEquity sqrt ranges b d nT target cancelled (.ok r) sent) :
    ∃ m K : Nat, m ≤ K ∧ 0 < K ∧ K + nT = sent.length ∧ r.equities[p]? = some (some ((m * w : ℚ) / (m * w + (K - m) * v))) ∧
      ∑ i ∈ Finset.range (2 ^ ranges.length), (r.winsByMask i : ℚ) = 4096 * (m * w + (K - m) * v) := by
  classical
  obtain ⟨batches, s, flag, r0, hist, hrun, hn, hB⟩ := approx_paths hwf hb hd h
  obtain ⟨h1, h2⟩ := decided_run hwf h8 hp hw hv hD hrun (by omega) hB
  exact ⟨_, _, List.countP_le_length, by omega, hn, h1, h2⟩

/-- C90: what is reported then: the part of player `p` depends only on how many batches have the property. -/
theorem C90_share (hwf : ∀ r ∈ ranges, WfRange r) (hb : CardMask b) (hd : CardMask d) (h8 : ranges.length ≤ 8) {P : List WHand → Prop}
    {p w v : Nat} (hp : p < ranges.length) (hw : 0 < w) (hv : 0 < v) (hD : Decided ranges b d P p w v) (hs : nT < sent.length)
    (h : ApproxEquity sqrt ranges b d nT target cancelled (.ok r) sent) :
    ∃ m K : Nat, m ≤ K ∧ 0 < K ∧ K + nT = sent.length ∧ r.equities[p]? = some (some ((m * w : ℚ) / (m * w + (K - m) * v))) := by
  obtain ⟨m, K, h1, h2, h3, h4, _⟩ := decided_batches hwf hb hd h8 hp hw hv hD hs h
  exact ⟨m, K, h1, h2, h3, h4⟩

/-- C90: the same with floating-point numbers, while the sum of the weights is below `2 ^ 53`: the value is rounded once. -/
theorem C90_share_float (hwf : ∀ r ∈ ranges, WfRange r) (hb : CardMask b) (hd : CardMask d) (h8 : ranges.length ≤ 8) {P : List WHand → Prop}
    {p w v : Nat} (hp : p < ranges.length) (hw : 0 < w) (hv : 0 < v) (hD : Decided ranges b d P p w v) (hs : nT < sent.length)
    {dev : ℚ → ℚ → Option ℚ} {prog : Option ℚ → Nat} (h : ApproxEquityF dev prog ranges b d nT target cancelled (.ok r) sent) :
    ∃ m K : Nat, m ≤ K ∧ 0 < K ∧ K + nT = sent.length ∧
      (4096 * (m * w + (K - m) * v : ℚ) ≤ 2 ^ 53 → r.equities[p]? = some (some (fl ((m * w : ℚ) / (m * w + (K - m) * v))))) := by
  obtain ⟨r1, sent1, g1, g2, g3⟩ := C63_approx_mode hwf hb hd h
  obtain ⟨m, K, h1, h2, h3, h4, h5⟩ := decided_batches hwf hb hd h8 hp hw hv hD (by omega) g1
  refine ⟨m, K, h1, h2, by omega, fun hle => ?_⟩
  rw [g2.once ?_, List.getElem?_map, h4]
  · rfl
  · rw [← h5] at hle
    exact_mod_cast hle

/-- C90: every number of threads that have the property occurs: the first deals decide. -/
theorem C90_choice (sqrt : ℚ → ℚ) (target : ℚ) (hwf : ∀ r ∈ ranges, WfRange r) (hb : CardMask b) (hd : CardMask d) (h8 : ranges.length ≤ 8)
    (hval : validate ranges.length b d = none) {P : List WHand → Prop} [DecidablePred P] {p w v : Nat} (hp : p < ranges.length) (hw : 0 < w) (hv : 0 < v)
    (hD : Decided ranges b d P p w v) {nT : Nat} (hT : 0 < nT) (cancelled : Bool) (first : Nat → List WHand)
    (hfirst : ∀ t, first t ∈ deals (specRanges ranges) (maskCards b ++ maskCards d))
    (hne : ∀ dd ∈ deals (specRanges ranges) (maskCards b ++ maskCards d), Spec.boards (maskCards b) (maskCards d) dd ≠ []) :
    ∃ r sent, ApproxEquity sqrt ranges b d nT target cancelled (.ok r) sent ∧ sent.length = 2 * nT ∧
      let m := (List.range nT).countP fun t => decide (P (first t))
      r.equities[p]? = some (some ((m * w : ℚ) / (m * w + (nT - m) * v))) := by
  have hne0 : deals (specRanges ranges) (maskCards b ++ maskCards d) ≠ [] := List.ne_nil_of_mem (hfirst 0)
  obtain ⟨s0, hs0⟩ := prepare_of_deal hwf hb hd hval hne0
  obtain ⟨s, hpr⟩ := C39_approx_ok hs0
  have hg := McReady.groups (ranges := ranges) (b := b) (d := d) ⟨hwf, hb, hd, hpr⟩
  obtain ⟨r, sent, flag, r0, hist, ds, h1, h2, h3, h4⟩ := exists_path sqrt target hwf hb hd hpr nT cancelled first hfirst
    (fun _ _ dd => (Spec.boards (maskCards b) (maskCards d) dd).headD []) fun t i dd hdd => by
      have := hne dd hdd
      cases e : Spec.boards (maskCards b) (maskCards d) dd with
      | nil => exact absurd e this
      | cons B l => simp
  refine ⟨r, sent, h1, h2, ?_⟩
  rw [List.flatMap_def] at h4
  have hfst : ∀ t, (withBoards (fun _ dd => (Spec.boards (maskCards b) (maskCards d) dd).headD []) (ds t)).map Prod.fst = ds t := by
    intro t
    unfold withBoards
    apply List.ext_getElem
    · simp
    · intro i g1 g2; simp
  have hB : ∀ B ∈ (List.range nT).map fun t => withBoards (fun _ dd => (Spec.boards (maskCards b) (maskCards d) dd).headD []) (ds t),
      B.length = 4096 ∧ (B.map Prod.fst).IsChain (OneGroup (groups ranges b d)) := by
    intro B hm
    obtain ⟨t, ht, rfl⟩ := List.mem_map.1 hm
    obtain ⟨g1, g2, g3, g4⟩ := h3 t (List.mem_range.1 ht)
    rw [hfst, ← hg]
    refine ⟨?_, g3⟩
    rw [← g1, ← congrArg List.length (hfst t), List.length_map]
  have := (decided_run (P := P) hwf h8 hp hw hv hD h4 (by simpa using hT) hB).1
  rw [this, List.length_map, List.length_range, List.countP_map]
  have e : (List.range nT).countP ((fun B => decide (∀ x ∈ B, P x.1)) ∘
      fun t => withBoards (fun _ dd => (Spec.boards (maskCards b) (maskCards d) dd).headD []) (ds t)) =
      (List.range nT).countP fun t => decide (P (first t)) := by
    apply List.countP_congr
    intro t ht
    obtain ⟨g1, g2, g3, g4⟩ := h3 t (List.mem_range.1 ht)
    have hmem : first t ∈ ds t := List.mem_of_mem_head? g4
    have hall := hD.kept.chain g2 (hg ▸ g3)
    simp only [Function.comp_apply, decide_eq_true_eq]
    constructor
    · intro h
      have : first t ∈ (withBoards (fun _ dd => (Spec.boards (maskCards b) (maskCards d) dd).headD []) (ds t)).map Prod.fst := by
        rw [hfst]; exact hmem
      obtain ⟨x, hx, e⟩ := List.mem_map.1 this
      rw [← e]
      exact h x hx
    · intro h x hx
      have : x.1 ∈ ds t := by
        rw [← hfst t]
        exact List.mem_map_of_mem hx
      exact (hall _ hmem _ this).1 h
  rw [e]

/-! ## Finding: ranges for which the result is never near -/

/-- Player 0 holds the two kings. -/
def KingsDealt (dd : List WHand) : Prop := dd[0]? = some (46, 44, 100)

instance : DecidablePred KingsDealt := fun _ => inferInstanceAs (Decidable (_ = _))

theorem apart_deck : DeckMask apartMask := by unfold DeckMask apartMask; norm_num

theorem apart_blocked : maskCards apartMask ++ maskCards 0 = [1, 3, 20, 45, 47] := by rw [apart_cards]; decide

/-- The legal deals: two kings against two twos, or neither. -/
theorem apart_deal {dd : List WHand} (h : dd ∈ deals (specRanges apart) (maskCards apartMask ++ maskCards 0)) :
    ∃ h0 ∈ apart0, ∃ h1 ∈ apart1, ∃ h2 ∈ apart2, dd = [toHole h0, toHole h1, toHole h2] ∧
      (h0 = ⟨46, 44, 100⟩ ∧ h2 = ⟨2, 0, 100⟩ ∨ h0 ≠ ⟨46, 44, 100⟩ ∧ h2 ≠ ⟨2, 0, 100⟩ ∧ h0.w = 1 ∧ h2.w = 1 ∧
        best ([1, 3, 20, 45, 47] ++ [h0.c1, h0.c2]) < [7, 11, 0] ∧ [7, 11, 0] ≤ best ([1, 3, 20, 45, 47] ++ [h2.c1, h2.c2])) := by
  rw [apart_blocked] at h
  unfold deals at h
  rw [List.mem_filter] at h
  obtain ⟨h1, h2⟩ := h
  have h2 : Spec.Legal [1, 3, 20, 45, 47] dd := by simpa using h2
  rw [show specRanges apart = [apart0.map toHole, apart1.map toHole, apart2.map toHole] from rfl] at h1
  simp only [choices, List.mem_flatMap, List.mem_map, List.mem_singleton] at h1
  obtain ⟨_, ⟨h0, g0, rfl⟩, _, ⟨_, ⟨k1, g1, rfl⟩, _, ⟨_, ⟨k2, g2, rfl⟩, _, rfl, rfl⟩, rfl⟩, rfl⟩ := h1
  obtain ⟨n1, n2⟩ := h2
  simp only [dealt, cardsOf, toHole, List.flatMap_cons, List.flatMap_nil, List.cons_append, List.nil_append] at n1 n2
  refine ⟨h0, g0, k1, g1, k2, g2, rfl, ?_⟩
  have hne : ∀ a ∈ [h0.c1, h0.c2], ∀ c ∈ [k2.c1, k2.c2], a ≠ c := by
    simp only [List.nodup_cons, List.mem_cons, List.not_mem_nil, or_false, not_or] at n1
    intro a ha c hc
    simp only [List.mem_cons, List.not_mem_nil, or_false] at ha hc
    rcases ha with rfl | rfl <;> rcases hc with rfl | rfl
    · exact n1.1.2.2.2.1
    · exact n1.1.2.2.2.2
    · exact n1.2.1.2.2.1
    · exact n1.2.1.2.2.2
  rcases apart_hands0 g0 (n2 _ (by simp)) (n2 _ (by simp)) with e0 | ⟨e0, w0, b0⟩ <;>
    rcases apart_hands2 g2 (n2 _ (by simp)) (n2 _ (by simp)) with e2 | ⟨e2, w2, b2⟩
  · exact Or.inl ⟨e0, e2⟩
  · exfalso
    subst e0
    rcases e2 with e | e | e | e
    · exact hne 44 (by simp) 44 (by simp [e]) rfl
    · exact hne 46 (by simp) 46 (by simp [e]) rfl
    · exact hne 44 (by simp) 44 (by simp [e]) rfl
    · exact hne 46 (by simp) 46 (by simp [e]) rfl
  · exfalso
    subst e2
    rcases e0 with e | e
    · exact hne 0 (by simp [e]) 0 (by simp) rfl
    · exact hne 2 (by simp [e]) 2 (by simp) rfl
  · refine Or.inr ⟨?_, ?_, w0, w2, b0, b2⟩
    · rintro rfl; revert w0; decide
    · rintro rfl; revert w2; decide

theorem apart_kings {h0 h1 h2 : Combo} : KingsDealt [toHole h0, toHole h1, toHole h2] ↔ h0 = ⟨46, 44, 100⟩ := by
  unfold KingsDealt toHole
  simp only [List.getElem?_cons_zero, Option.some.injEq, Prod.mk.injEq]
  constructor
  · rintro ⟨e1, e2, e3⟩; cases h0; simp only at e1 e2 e3; rw [e1, e2, e3]
  · rintro rfl; exact ⟨rfl, rfl, rfl⟩

theorem winners_three {B : List Nat} {x y z : WHand} {i : Nat} (hi : i < 3)
    (h : ∀ j < 3, j ≠ i → strength B [x, y, z] j < strength B [x, y, z] i) : winners B [x, y, z] = [i] := by
  unfold winners
  rw [show [x, y, z].length = 3 from rfl]
  rw [List.filter_congr (q := fun k => decide (k = i)) (by
    intro k hk
    have hk := List.mem_range.1 hk
    rw [decide_eq_decide]
    constructor
    · intro hall
      by_contra hne
      exact absurd (h k hk hne) (not_lt_of_ge (hall i hi))
    · rintro rfl j hj
      by_cases e : j = k
      · rw [e]
      · exact (h j hj e).le)]
  have : i = 0 ∨ i = 1 ∨ i = 2 := by omega
  rcases this with rfl | rfl | rfl <;> decide

theorem apart_showdown {x : List WHand × List Nat} (h : x ∈ showdowns (specRanges apart) (maskCards apartMask) (maskCards 0)) :
    x.1 ∈ deals (specRanges apart) (maskCards apartMask ++ maskCards 0) ∧ x.2 = [1, 3, 20, 45, 47] := by
  rw [full_showdowns (by rw [apart_cards]; rfl)] at h
  obtain ⟨dd, hd, rfl⟩ := List.mem_map.1 h
  exact ⟨hd, apart_cards⟩

theorem apart_decided : Decided apart apartMask 0 KingsDealt 0 1000000 100 := by
  refine ⟨?_, ?_, ?_⟩
  · intro x hx y hy hg
    obtain ⟨x0, _, x1, _, x2, _, rfl, hX⟩ := apart_deal hx
    obtain ⟨y0, _, y1, _, y2, _, rfl, hY⟩ := apart_deal hy
    rw [apart_kings, apart_kings]
    obtain ⟨g, hg, he⟩ := hg
    rw [show groups apart apartMask 0 = [[0, 1], [2]] from apart_groups] at hg
    have inj : ∀ {a c : Combo}, toHole a = toHole c → a = c := by
      rintro ⟨a1, a2, a3⟩ ⟨c1, c2, c3⟩ e
      simpa [toHole] using e
    have hg : g = [0, 1] ∨ g = [2] := by simpa using hg
    rcases hg with rfl | rfl
    · have := he 2 (by decide)
      simp only [List.getElem?_cons_succ, List.getElem?_cons_zero, Option.some.injEq] at this
      have := inj this
      subst this
      rcases hX with ⟨a1, a2⟩ | ⟨a1, a2, _⟩ <;> rcases hY with ⟨c1, c2⟩ | ⟨c1, c2, _⟩
      · exact ⟨fun _ => c1, fun _ => a1⟩
      · exact absurd a2 c2
      · exact absurd c2 a2
      · exact ⟨fun h => absurd h a1, fun h => absurd h c1⟩
    · have := he 0 (by decide)
      simp only [List.getElem?_cons_zero, Option.some.injEq] at this
      rw [inj this]
  · intro x hx hP
    obtain ⟨hd, hb⟩ := apart_showdown hx
    obtain ⟨x0, _, x1, m1, x2, _, e, hX⟩ := apart_deal hd
    rw [e] at hP ⊢
    rw [apart_kings] at hP
    rw [hb]
    rcases hX with ⟨rfl, rfl⟩ | hX
    · constructor
      · apply winners_three (by decide)
        intro j hj hj0
        have : j = 1 ∨ j = 2 := by omega
        rcases this with rfl | rfl
        · exact apart_quads x1 m1
        · exact apart_quads2
      · have := (apart_hands1 x1 m1).1
        simp [Spec.dealWeight, toHole, this]
    · exact absurd hP hX.1
  · intro x hx hP
    obtain ⟨hd, hb⟩ := apart_showdown hx
    obtain ⟨x0, _, x1, m1, x2, _, e, hX⟩ := apart_deal hd
    rw [e] at hP ⊢
    rw [apart_kings] at hP
    rw [hb]
    rcases hX with hX | ⟨_, _, w0, w2, b0, b2⟩
    · exact absurd hX.1 hP
    · refine ⟨⟨2, by decide, ?_⟩, ?_⟩
      · apply winners_three (by decide)
        intro j hj hj0
        have : j = 0 ∨ j = 1 := by omega
        rcases this with rfl | rfl
        · exact lt_of_lt_of_le b0 b2
        · exact lt_of_lt_of_le (apart_hands1 x1 m1).2 b2
      · have := (apart_hands1 x1 m1).1
        simp [Spec.dealWeight, toHole, this, w0, w2]

theorem sum_ite {α : Type} {P : α → Prop} [DecidablePred P] {f : α → Nat} {u v : Nat} : ∀ l : List α, (∀ x ∈ l, f x = if P x then u else v) →
    (l.map f).sum = l.countP (fun x => decide (P x)) * u + (l.length - l.countP (fun x => decide (P x))) * v := by
  intro l
  induction l with
  | nil => intro _; simp
  | cons x l ih =>
    intro h
    rw [List.map_cons, List.sum_cons, ih fun y hy => h y (by simp [hy]), h x (by simp), List.countP_cons, List.length_cons]
    have := List.countP_le_length (p := fun x => decide (P x)) (l := l)
    by_cases hx : P x
    · rw [if_pos hx, if_pos (by simpa using hx), show l.length + 1 - (List.countP (fun x => decide (P x)) l + 1) =
        l.length - List.countP (fun x => decide (P x)) l by omega]
      ring
    · rw [if_neg hx, if_neg (by simpa using hx), add_zero, show l.length + 1 - List.countP (fun x => decide (P x)) l =
        l.length - List.countP (fun x => decide (P x)) l + 1 by omega]
      ring

theorem apart_weight {dd : List WHand} (h : dd ∈ deals (specRanges apart) (maskCards apartMask ++ maskCards 0)) :
    Spec.dealWeight dd = if KingsDealt dd then 1000000 else 100 := by
  have hx : (dd, maskCards apartMask) ∈ showdowns (specRanges apart) (maskCards apartMask) (maskCards 0) := by
    rw [full_showdowns (by rw [apart_cards]; rfl)]
    exact List.mem_map_of_mem h
  split
  · next hP => exact (apart_decided.inside _ hx hP).2
  · next hP => exact (apart_decided.outside _ hx hP).2

theorem apart_weigh (rs : List (List Combo)) (hwf : ∀ r ∈ rs, WfRange r) :
    ((deals (specRanges rs) (maskCards apartMask ++ maskCards 0)).map Spec.dealWeight).sum = weighFrom apartMask (specRanges rs) := by
  have := filter_maskOk rs hwf apartMask (maskCards apartMask ++ maskCards 0) fun c hc => by rw [← blocked_iff apartMask 0 c hc, Nat.or_zero]
  rw [weighFrom_eq]
  unfold specRanges
  rw [← this]

theorem deals_kings (l : List WHand) (rs : List (List WHand)) (blocked : List Nat) :
    (deals (l :: rs) blocked).filter (fun dd => decide (KingsDealt dd)) = deals ((l.filter fun h => decide (h = (46, 44, 100))) :: rs) blocked := by
  unfold deals
  rw [List.filter_filter, List.filter_congr (q := fun dd => decide (Spec.Legal blocked dd) && decide (KingsDealt dd)) fun x _ => Bool.and_comm _ _,
    ← List.filter_filter]
  have : ∀ M : List (List WHand), List.filter (fun dd : List WHand => decide (KingsDealt dd)) (l.flatMap fun h => M.map (h :: ·)) =
      (l.filter fun h => decide (h = (46, 44, 100))).flatMap fun h => M.map (h :: ·) := by
    intro M
    induction l with
    | nil => rfl
    | cons h l ih =>
      rw [List.flatMap_cons, List.filter_append, ih, List.filter_map, List.filter_cons]
      by_cases hh : h = (46, 44, 100)
      · rw [if_pos (by simpa using hh), List.flatMap_cons]
        congr 2
        apply List.filter_eq_self.2
        intro d _
        simp [KingsDealt, hh]
      · rw [if_neg (by simpa using hh)]
        have : List.filter ((fun dd : List WHand => decide (KingsDealt dd)) ∘ fun x => h :: x) M = [] := by
          apply List.filter_eq_nil_iff.2
          intro d _
          simp [KingsDealt, hh]
        rw [this]; rfl
  rw [choices, choices, this]

theorem apart_two : weighFrom apartMask (specRanges [[⟨46, 44, 100⟩], apart1, apart2]) = 2000000 := by decide +kernel

theorem apart_sums {D : List (List WHand)} (h : ∀ dd ∈ D, Spec.dealWeight dd = if KingsDealt dd then 1000000 else 100)
    (h1 : (D.map Spec.dealWeight).sum = 3312000) (h2 : ((D.filter fun dd => decide (KingsDealt dd)).map Spec.dealWeight).sum = 2000000) :
    D.countP (fun dd => decide (KingsDealt dd)) = 2 ∧ D.length = 13122 := by
  rw [sum_ite (P := KingsDealt) (u := 1000000) (v := 100) D h] at h1
  rw [sum_ite (P := KingsDealt) (u := 1000000) (v := 0) _ fun dd hd => by
      have hd := List.mem_filter.1 hd
      rw [h dd hd.1, if_pos (by simpa using hd.2), if_pos (by simpa using hd.2)], List.countP_filter] at h2
  simp only [Bool.and_self, mul_zero, add_zero] at h2
  omega

theorem apart_filtered : (deals (specRanges apart) (maskCards apartMask ++ maskCards 0)).filter (fun dd => decide (KingsDealt dd)) =
    deals (specRanges [[⟨46, 44, 100⟩], apart1, apart2]) (maskCards apartMask ++ maskCards 0) := by
  have h : ((apart0.map toHole).filter fun h => decide (h = (46, 44, 100))) = [(46, 44, 100)] := by decide +kernel
  have := deals_kings (apart0.map toHole) (specRanges [apart1, apart2]) (maskCards apartMask ++ maskCards 0)
  rw [h] at this
  exact this

/-- There are 13122 deals; in two of them player 0 holds the kings. -/
theorem apart_counts : (deals (specRanges apart) (maskCards apartMask ++ maskCards 0)).countP (fun dd => decide (KingsDealt dd)) = 2 ∧
    (deals (specRanges apart) (maskCards apartMask ++ maskCards 0)).length = 13122 := by
  refine apart_sums (fun dd hd => apart_weight hd) ((apart_weigh apart apart_wf).trans apart_total) ?_
  rw [apart_filtered]
  refine (apart_weigh _ fun r hr => ?_).trans apart_two
  rcases List.mem_cons.1 hr with rfl | hr
  · intro c hc
    rw [List.mem_singleton.1 hc]
    decide
  · exact apart_wf r (List.mem_cons_of_mem _ hr)

theorem apart_dealt : ([(46, 44, 100), (5, 4, 100), (2, 0, 100)] : List WHand) ∈ deals (specRanges apart) (maskCards apartMask ++ maskCards 0) ∧
    ([(8, 0, 1), (5, 4, 100), (44, 9, 1)] : List WHand) ∈ deals (specRanges apart) (maskCards apartMask ++ maskCards 0) := by
  rw [apart_blocked]
  unfold deals
  rw [List.mem_filter, List.mem_filter, mem_choices, mem_choices]
  have h : ∀ x : WHand, ∀ y ∈ apart0, ∀ z ∈ apart1, ∀ u ∈ apart2, ([toHole y, toHole z, toHole u].length = (specRanges apart).length ∧
      ∀ (i : Nat) (h : i < [toHole y, toHole z, toHole u].length) (h' : i < (specRanges apart).length), [toHole y, toHole z, toHole u][i] ∈ (specRanges apart)[i]) := by
    intro x y hy z hz u hu
    refine ⟨rfl, fun i h h' => ?_⟩
    have : i = 0 ∨ i = 1 ∨ i = 2 := by simp at h; omega
    rcases this with rfl | rfl | rfl
    · exact List.mem_map_of_mem hy
    · exact List.mem_map_of_mem hz
    · exact List.mem_map_of_mem hu
  refine ⟨⟨h (0, 0, 0) ⟨46, 44, 100⟩ (by decide +kernel) ⟨5, 4, 100⟩ (by decide +kernel) ⟨2, 0, 100⟩ (by decide +kernel), by decide⟩,
    h (0, 0, 0) ⟨8, 0, 1⟩ (by decide +kernel) ⟨5, 4, 100⟩ (by decide +kernel) ⟨44, 9, 1⟩ (by decide +kernel), by decide⟩

theorem apart_nonempty : deals (specRanges apart) (maskCards apartMask ++ maskCards 0) ≠ [] := List.ne_nil_of_mem apart_dealt.1

theorem apart_length : apart.length = 3 := rfl

theorem apart_valid : validate apart.length apartMask 0 = none := by decide +kernel

theorem apart_texts : fromStrings asciiLower [apartText0.toList, apartText1.toList, apartText2.toList] = .ok apart := by
  unfold fromStrings
  simp only [List.mapM_cons, List.mapM_nil, apart_read0, apart_read1, apart_read2]
  rfl

attribute [local irreducible] apart

theorem won_sum {D : List (List WHand)} {B : List Nat} (h : ∀ dd ∈ D, winning 0 (dd, B) = if KingsDealt dd then 1000000 else 0)
    (h2 : D.countP (fun dd => decide (KingsDealt dd)) = 2) : ((D.map fun dd => (dd, B)).map (winning 0)).sum = ((2 * 1000000 : Nat) : ℚ) := by
  have := sum_ite (P := KingsDealt) (f := fun dd => if KingsDealt dd then 1000000 else 0) (u := 1000000) (v := 0) D fun _ _ => rfl
  rw [h2, mul_zero, add_zero] at this
  rw [← this, Nat.cast_list_sum, List.map_map, List.map_map]
  congr 1
  apply List.map_congr_left
  intro dd hd
  rw [Function.comp_apply, h dd hd, Function.comp_apply]
  split <;> simp

theorem apart_won : ((showdowns (specRanges apart) (maskCards apartMask) (maskCards 0)).map (winning 0)).sum = ((2 * 1000000 : Nat) : ℚ) := by
  rw [full_showdowns (by rw [apart_cards]; rfl)]
  refine won_sum (fun dd hd => ?_) apart_counts.1
  have hx : (dd, maskCards apartMask) ∈ showdowns (specRanges apart) (maskCards apartMask) (maskCards 0) := by
    rw [full_showdowns (by rw [apart_cards]; rfl)]
    exact List.mem_map_of_mem hd
  unfold winning
  by_cases hP : KingsDealt dd
  · obtain ⟨e1, e2⟩ := apart_decided.inside _ hx hP
    rw [if_pos hP, e1, e2]; simp
  · obtain ⟨⟨q, hq, e1⟩, e2⟩ := apart_decided.outside _ hx hP
    rw [if_neg hP, e1, e2]; simp [hq.symm]

theorem apart_weighed : totalWeight (showdowns (specRanges apart) (maskCards apartMask) (maskCards 0)) = 3312000 := by
  unfold totalWeight
  rw [full_showdowns (by rw [apart_cards]; rfl), List.map_map]
  exact (apart_weigh apart apart_wf).trans apart_total

theorem exact_part (hwf : ∀ r ∈ ranges, WfRange r) (hb : CardMask b) (hd : CardMask d) (hT : 0 < nT) (h8 : ranges.length ≤ 8)
    (hw : WholeShares ranges b d) (h : ExactEquity ranges b d nT cancelled false (.ok r) sent) {p : Nat} (hp : p < ranges.length) {A : ℚ} {T : Nat}
    (h1 : ((showdowns (specRanges ranges) (maskCards b) (maskCards d)).map (winning p)).sum = A)
    (h2 : totalWeight (showdowns (specRanges ranges) (maskCards b) (maskCards d)) = T) (h0 : T ≠ 0) : r.equities[p]? = some (some (A / T)) := by
  rw [(C61_exact hwf hb hd hT h8 hw h).2 p hp, ← winning_sum, h1, h2, fdiv, if_neg (by exact_mod_cast h0)]

/-- C90 (finding): three players with the ranges `KK,A2@1,…,32@1`, `3s3h,3c3d` and `22,AK@1,…,K3@1` on the board Kh Kd 2h 2d 7s.  The first two
ranges are combined.  Of the 13122 deals player 0 holds two kings in two and then wins; otherwise player 2 wins.  The equity of player 0 is 125/207,
that is 60 %, and that is what every exact run reports. -/
theorem C90_apart_exact :
    fromStrings asciiLower [apartText0.toList, apartText1.toList, apartText2.toList] = .ok apart ∧
    getCardMask asciiLower "KhKd2h2d7s".toList = apartMask ∧ groups apart apartMask 0 = [[0, 1], [2]] ∧
    (deals (specRanges apart) (maskCards apartMask ++ maskCards 0)).length = 13122 ∧
    (deals (specRanges apart) (maskCards apartMask ++ maskCards 0)).countP (fun dd => decide (KingsDealt dd)) = 2 ∧
    ∀ nT, 0 < nT → (∃ r sent, ExactEquity apart apartMask 0 nT false false (.ok r) sent) ∧
      ∀ cancelled r sent, ExactEquity apart apartMask 0 nT cancelled false (.ok r) sent → r.equities[0]? = some (some (125 / 207)) := by
  refine ⟨apart_texts, apart_mask, apart_groups, apart_counts.2, apart_counts.1, fun nT hT => ⟨?_, ?_⟩⟩
  · have hprod : (apart.map List.length).prod + 2000000 < 2 ^ 64 := by decide +kernel
    exact run_of_deal apart_wf apart_deck.mask zero_deck apart_valid apart_nonempty hprod nT false
  · intro cancelled r sent h
    have h8 : apart.length ≤ 8 := by rw [apart_length]; decide
    have h0 : 0 < apart.length := by rw [apart_length]; decide
    rw [exact_part apart_wf apart_deck.mask zero_deck hT h8 apart_decided.whole h h0 apart_won apart_weighed (by decide)]
    norm_num

/-- C90 (finding): no run of at most 1000 batches, that is four million evaluations, comes near: it reports 0 or at least 10/11. -/
theorem C90_apart_far {sqrt : ℚ → ℚ} {target : ℚ} {nT : Nat} {cancelled : Bool} {r : Results} {sent : List Nat}
    (h : ApproxEquity sqrt apart apartMask 0 nT target cancelled (.ok r) sent) (hs : nT < sent.length) (hK : sent.length ≤ nT + 1000) :
    ∃ e, r.equities[0]? = some (some e) ∧ (e = 0 ∨ 10 / 11 ≤ e) := by
  obtain ⟨m, K, h1, h2, h3, h4⟩ := C90_share apart_wf apart_deck.mask zero_deck (by rw [apart_length]; decide) (by rw [apart_length]; decide) (by decide) (by decide) apart_decided hs h
  refine ⟨_, h4, ?_⟩
  rcases Nat.eq_zero_or_pos m with rfl | hm
  · left; simp
  · right
    have hm' : (1 : ℚ) ≤ m := by exact_mod_cast hm
    have h1' : (m : ℚ) ≤ K := by exact_mod_cast h1
    have hK' : (K : ℚ) ≤ 1000 := by exact_mod_cast (by omega : K ≤ 1000)
    rw [div_le_div_iff₀ (by norm_num) (by push_cast; nlinarith)]
    push_cast
    nlinarith

/-- C90 (finding): the same with floating-point numbers. -/
theorem C90_apart_float {dev : ℚ → ℚ → Option ℚ} {prog : Option ℚ → Nat} {target : ℚ} {nT : Nat} {cancelled : Bool} {r : Results} {sent : List Nat}
    (h : ApproxEquityF dev prog apart apartMask 0 nT target cancelled (.ok r) sent) (hs : nT < sent.length) (hK : sent.length ≤ nT + 1000) :
    ∃ e, r.equities[0]? = some (some e) ∧ (e = 0 ∨ 9 / 10 ≤ e) := by
  obtain ⟨m, K, h1, h2, h3, h4⟩ := C90_share_float apart_wf apart_deck.mask zero_deck (by rw [apart_length]; decide) (by rw [apart_length]; decide)
    (by decide) (by decide) apart_decided hs h
  have h1' : (m : ℚ) ≤ K := by exact_mod_cast h1
  have hK' : (K : ℚ) ≤ 1000 := by exact_mod_cast (by omega : K ≤ 1000)
  have hm0 : (0 : ℚ) ≤ m := Nat.cast_nonneg _
  have h4 := h4 (by push_cast; norm_num; nlinarith)
  refine ⟨_, h4, ?_⟩
  rcases Nat.eq_zero_or_pos m with rfl | hm
  · left
    simp only [Nat.cast_zero, zero_mul, zero_div]
    decide +kernel
  · right
    have hm' : (1 : ℚ) ≤ m := by exact_mod_cast hm
    refine le_trans (by decide +kernel : (9 / 10 : ℚ) ≤ fl (10 / 11)) (fl_mono (by norm_num) ?_)
    rw [div_le_div_iff₀ (by norm_num) (by push_cast; nlinarith)]
    push_cast
    nlinarith

/-- C90 (finding): both occur, with any number of threads: the first deals decide. -/
theorem C90_apart_runs (sqrt : ℚ → ℚ) (target : ℚ) {nT : Nat} (hT : 0 < nT) (cancelled : Bool) :
    (∃ r sent, ApproxEquity sqrt apart apartMask 0 nT target cancelled (.ok r) sent ∧ sent.length = 2 * nT ∧ r.equities[0]? = some (some 0)) ∧
    ∃ r sent, ApproxEquity sqrt apart apartMask 0 nT target cancelled (.ok r) sent ∧ sent.length = 2 * nT ∧ r.equities[0]? = some (some 1) := by
  have hne : ∀ dd ∈ deals (specRanges apart) (maskCards apartMask ++ maskCards 0), Spec.boards (maskCards apartMask) (maskCards 0) dd ≠ [] := by
    intro dd _
    rw [full_boards (by rw [apart_cards]; rfl)]
    simp
  constructor
  · obtain ⟨r, sent, h1, h2, h3⟩ := C90_choice sqrt target apart_wf apart_deck.mask zero_deck (by rw [apart_length]; decide) apart_valid (by rw [apart_length]; decide) (by decide) (by decide)
      apart_decided hT cancelled (fun _ => [(8, 0, 1), (5, 4, 100), (44, 9, 1)]) (fun _ => apart_dealt.2) hne
    refine ⟨r, sent, h1, h2, ?_⟩
    rw [h3]
    simp [KingsDealt]
  · obtain ⟨r, sent, h1, h2, h3⟩ := C90_choice sqrt target apart_wf apart_deck.mask zero_deck (by rw [apart_length]; decide) apart_valid (by rw [apart_length]; decide) (by decide) (by decide)
      apart_decided hT cancelled (fun _ => [(46, 44, 100), (5, 4, 100), (2, 0, 100)]) (fun _ => apart_dealt.1) hne
    refine ⟨r, sent, h1, h2, ?_⟩
    rw [h3]
    have : ((List.range nT).countP fun _ => decide (KingsDealt [(46, 44, 100), (5, 4, 100), (2, 0, 100)])) = nT := by
      rw [List.countP_eq_length.2 fun _ _ => by decide, List.length_range]
    simp only [this, sub_self, zero_mul, add_zero]
    rw [div_self]
    have : (0 : ℚ) < nT := by exact_mod_cast hT
    positivity

end Pokers
