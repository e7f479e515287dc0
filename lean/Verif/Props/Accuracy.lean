import Verif.Spec.Sample
import Verif.Proofs.Sampling
import Verif.Proofs.McChoice
import Verif.Props.Cycle
import Verif.Props.EndToEnd
import Verif.Props.McMean
/-!
# How accurate the random simulation is (C80)

With a single combined range the deals that are evaluated do not depend on chance, apart from where each batch begins (C79); the boards are
drawn independently of each other, and all boards of a deal are equally likely (C43).  So the result of the simulation is the equity over
one of the `outcomes`, which are all equally likely.
-/
namespace Pokers
open Spec
open CombinedRange

variable {sqrt : ℚ → ℚ} {ranges : List (List Combo)} {b d nT : Nat} {target : ℚ} {cancelled : Bool} {r : Results} {sent : List Nat}

/-! ## Outcomes -/

section
variable {board dead : List Nat} {ds : List (List WHand)} {p : Nat}

theorem mem_outcomes {sd : List (List WHand × List Nat)} : sd ∈ outcomes board dead ds ↔
    sd.map Prod.fst = ds ∧ ∀ x ∈ sd, x.2 ∈ boards board dead x.1 := by
  unfold outcomes
  rw [mem_choices]
  constructor
  · rintro ⟨h1, h2⟩
    have h1 : sd.length = ds.length := by rw [h1, List.length_map]
    have key : ∀ i (h : i < sd.length) (h' : i < ds.length), sd[i].1 = ds[i] ∧ sd[i].2 ∈ boards board dead sd[i].1 := by
      intro i h h'
      have := h2 i h (by rw [List.length_map]; exact h')
      rw [List.getElem_map] at this
      obtain ⟨B, hB, e⟩ := List.mem_map.1 this
      rw [← e]
      exact ⟨rfl, hB⟩
    refine ⟨List.ext_getElem (by rw [List.length_map, h1]) fun i h h' => ?_, fun x hx => ?_⟩
    · rw [List.length_map] at h
      rw [List.getElem_map]
      exact (key i h h').1
    · obtain ⟨i, hi, rfl⟩ := List.getElem_of_mem hx
      exact (key i hi (h1 ▸ hi)).2
  · rintro ⟨rfl, h2⟩
    refine ⟨by rw [List.length_map, List.length_map], fun i h h' => ?_⟩
    rw [List.getElem_map, List.getElem_map]
    exact List.mem_map.2 ⟨_, h2 _ (List.getElem_mem h), rfl⟩

theorem winning_eq (p : Nat) (x : List WHand × List Nat) : winning p x = (Spec.dealWeight x.1 : ℚ) * potShare p x := by
  unfold winning potShare
  split
  · rw [mul_one_div]
  · rw [mul_zero]

theorem potShare_range (p : Nat) (x : List WHand × List Nat) : 0 ≤ potShare p x ∧ potShare p x ≤ 1 := by
  unfold potShare
  split
  · rename_i h
    have : 1 ≤ (winners x.2 x.1).length := List.length_pos_iff.2 (List.ne_nil_of_mem h)
    refine ⟨by positivity, ?_⟩
    rw [div_le_one (by exact_mod_cast this)]
    exact_mod_cast this
  · exact ⟨le_refl _, zero_le_one⟩

theorem outcomes_weight {sd : List (List WHand × List Nat)} (h : sd ∈ outcomes board dead ds) :
    totalWeight sd = (ds.map Spec.dealWeight).sum := by
  rw [← (mem_outcomes.1 h).1, List.map_map]
  rfl

theorem lists_ne_nil (h : ∀ dd ∈ ds, boards board dead dd ≠ []) :
    ∀ l ∈ ds.map (fun dd => (boards board dead dd).map fun B => (dd, B)), l ≠ [] := by
  intro l hl
  obtain ⟨dd, hdd, rfl⟩ := List.mem_map.1 hl
  intro e
  exact h dd hdd (List.map_eq_nil_iff.1 e)

/-- The mean of the equity over all outcomes. -/
theorem outcomes_mean (h : ∀ dd ∈ ds, boards board dead dd ≠ []) :
    (mean (outcomes board dead ds) fun sd => equityIn sd p) =
      (ds.map fun dd => (Spec.dealWeight dd : ℚ) * dealEquity board dead p dd).sum / ((ds.map Spec.dealWeight).sum : Nat) := by
  have e : ∀ sd ∈ outcomes board dead ds, equityIn sd p = (((ds.map Spec.dealWeight).sum : Nat) : ℚ)⁻¹ * (sd.map (winning p)).sum := by
    intro sd hsd
    unfold equityIn
    rw [outcomes_weight hsd, div_eq_inv_mul]
  rw [mean_congr e, mean_mul, div_eq_inv_mul]
  congr 1
  unfold outcomes
  rw [mean_choices (lists_ne_nil h), List.map_map]
  congr 1
  apply List.map_congr_left
  intro dd _
  show mean ((boards board dead dd).map fun B => (dd, B)) (winning p) = _
  rw [mean_map]
  unfold dealEquity
  rw [← mean_mul]
  exact mean_congr fun B _ => winning_eq _ _

/-- The variance of the equity over all outcomes. -/
theorem outcomes_variance (h : ∀ dd ∈ ds, boards board dead dd ≠ []) :
    (variance (outcomes board dead ds) fun sd => equityIn sd p) =
      (ds.map fun dd => (Spec.dealWeight dd : ℚ) ^ 2 * dealVariance board dead p dd).sum / (((ds.map Spec.dealWeight).sum : Nat) : ℚ) ^ 2 := by
  have e : ∀ sd ∈ outcomes board dead ds, equityIn sd p = (((ds.map Spec.dealWeight).sum : Nat) : ℚ)⁻¹ * (sd.map (winning p)).sum := by
    intro sd hsd
    unfold equityIn
    rw [outcomes_weight hsd, div_eq_inv_mul]
  rw [variance_congr e, variance_mul, div_eq_inv_mul, inv_pow]
  congr 1
  unfold outcomes
  rw [variance_choices (lists_ne_nil h), List.map_map]
  congr 1
  apply List.map_congr_left
  intro dd _
  show variance ((boards board dead dd).map fun B => (dd, B)) (winning p) = _
  rw [variance_map]
  unfold dealVariance
  rw [← variance_mul]
  exact variance_congr fun B _ => winning_eq _ _

/-- A bound for the variance. -/
theorem outcomes_variance_le (h : ∀ dd ∈ ds, boards board dead dd ≠ []) {wmax : Nat} (hw : ∀ dd ∈ ds, Spec.dealWeight dd ≤ wmax) :
    (variance (outcomes board dead ds) fun sd => equityIn sd p) ≤ wmax / (4 * ((ds.map Spec.dealWeight).sum : Nat)) := by
  rw [outcomes_variance h]
  by_cases h0 : (ds.map Spec.dealWeight).sum = 0
  · rw [h0]; simp
  have hpos : (0 : ℚ) < ((ds.map Spec.dealWeight).sum : Nat) := by exact_mod_cast Nat.pos_of_ne_zero h0
  rw [div_le_div_iff₀ (by positivity) (by positivity)]
  have key : (ds.map fun dd => (Spec.dealWeight dd : ℚ) ^ 2 * dealVariance board dead p dd).sum ≤
      (wmax / 4 : ℚ) * ((ds.map Spec.dealWeight).sum : Nat) := by
    rw [Nat.cast_list_sum, List.map_map, ← List.sum_map_mul_left]
    apply List.sum_le_sum
    intro dd hdd
    have h1 : dealVariance board dead p dd ≤ 1 / 4 := variance_le_quarter (h dd hdd) fun B _ => potShare_range p (dd, B)
    have h2 : (Spec.dealWeight dd : ℚ) ≤ wmax := by exact_mod_cast hw dd hdd
    have h3 : (0 : ℚ) ≤ Spec.dealWeight dd := Nat.cast_nonneg _
    have h4 := variance_nonneg (boards board dead dd) fun B => potShare p (dd, B)
    show (Spec.dealWeight dd : ℚ) ^ 2 * dealVariance board dead p dd ≤ wmax / 4 * (Spec.dealWeight dd : ℚ)
    calc (Spec.dealWeight dd : ℚ) ^ 2 * dealVariance board dead p dd ≤ (Spec.dealWeight dd : ℚ) ^ 2 * (1 / 4) := by
          exact mul_le_mul_of_nonneg_left h1 (by positivity)
      _ = (Spec.dealWeight dd : ℚ) / 4 * Spec.dealWeight dd := by ring
      _ ≤ wmax / 4 * (Spec.dealWeight dd : ℚ) := by
          apply mul_le_mul_of_nonneg_right _ h3
          linarith
  calc _ ≤ (wmax / 4 : ℚ) * ((ds.map Spec.dealWeight).sum : Nat) * (4 * ((ds.map Spec.dealWeight).sum : Nat)) := by
        exact mul_le_mul_of_nonneg_right key (by positivity)
    _ = wmax * (((ds.map Spec.dealWeight).sum : Nat) : ℚ) ^ 2 := by ring

end

/-! ## The exact equity -/

/-- The exact equity is the weighted mean of the equities of the deals. -/
theorem exact_mean (hwf : ∀ r ∈ ranges, WfRange r)
    (hne : ∀ dd ∈ deals (specRanges ranges) (maskCards b ++ maskCards d), boards (maskCards b) (maskCards d) dd ≠ [])
    {e : ℚ} {p : Nat} (he : equityOf (specRanges ranges) (maskCards b) (maskCards d) p = some e) :
    let D := deals (specRanges ranges) (maskCards b ++ maskCards d)
    0 < (D.map Spec.dealWeight).sum ∧
    e = (D.map fun dd => (Spec.dealWeight dd : ℚ) * dealEquity (maskCards b) (maskCards d) p dd).sum / ((D.map Spec.dealWeight).sum : Nat) := by
  intro D
  unfold equityOf at he
  simp only at he
  split at he
  · cases he
  rename_i h0
  injection he with he
  set N := (((List.range 52).filter fun c => c ∉ maskCards b ++ maskCards d).length - 2 * ranges.length).choose (5 - (maskCards b).length) with hN
  have hlen : ∀ dd ∈ D, (boards (maskCards b) (maskCards d) dd).length = N := fun dd hdd => boards_length hwf hdd
  have hsum : ∀ f : List WHand × List Nat → ℚ, ((showdowns (specRanges ranges) (maskCards b) (maskCards d)).map f).sum =
      N * (D.map fun dd => mean (boards (maskCards b) (maskCards d) dd) fun B => f (dd, B)).sum := by
    intro f
    unfold showdowns
    rw [List.flatMap_def, List.map_flatten, List.sum_flatten, List.map_map, List.map_map, ← List.sum_map_mul_left]
    congr 1
    apply List.map_congr_left
    intro dd hdd
    simp only [Function.comp_apply]
    rw [List.map_map]
    unfold mean
    rw [hlen dd hdd, mul_div_cancel₀]
    · rfl
    · have := List.length_pos_iff.2 (hne dd hdd)
      rw [hlen dd hdd] at this
      exact_mod_cast this.ne'
  have hw : (totalWeight (showdowns (specRanges ranges) (maskCards b) (maskCards d)) : ℚ) = N * ((D.map Spec.dealWeight).sum : Nat) := by
    unfold totalWeight
    rw [Nat.cast_list_sum, List.map_map, hsum, Nat.cast_list_sum, List.map_map]
    congr 2
    apply List.map_congr_left
    intro dd hdd
    exact mean_const (hne dd hdd) (Spec.dealWeight dd : ℚ)
  have hpos : 0 < N * (D.map Spec.dealWeight).sum := by
    have : ((totalWeight (showdowns (specRanges ranges) (maskCards b) (maskCards d)) : Nat) : ℚ) ≠ 0 := by exact_mod_cast h0
    rw [hw] at this
    apply Nat.pos_of_ne_zero
    exact_mod_cast this
  refine ⟨Nat.pos_of_mul_pos_left hpos, ?_⟩
  rw [← he, hsum, hw, mul_div_mul_left]
  · congr 2
    apply List.map_congr_left
    intro dd hdd
    unfold dealEquity
    rw [← mean_mul]
    exact mean_congr fun B _ => winning_eq _ _
  · have := Nat.pos_of_mul_pos_right hpos
    exact_mod_cast this.ne'

/-! ## Runs -/

/-- The deals evaluated in a run. -/
structure Evaluates (ranges : List (List Combo)) (b d K : Nat) (ds : List (List WHand)) : Prop where
  rounds : ∃ (order : List (List WHand)) (batches : List (List (List WHand))),
    order.Perm (deals (specRanges ranges) (maskCards b ++ maskCards d)) ∧ ds = batches.flatten ∧ batches.length = K ∧
    ∀ B ∈ batches, B.length = 4096 ∧ ∃ k, GoesRound order k B

theorem approx_outcome (hwf : ∀ r ∈ ranges, WfRange r) (hb : CardMask b) (hd : CardMask d)
    (h1 : (fromRanges (ranges.map fun h => removeConflictingCombos h b d)).length = 1) (h8 : ranges.length ≤ 8) (hw : WholeShares ranges b d)
    (h : ApproxEquity sqrt ranges b d nT target cancelled (.ok r) sent) :
    ∃ ds, Evaluates ranges b d (sent.length - nT) ds ∧ ∃ sd ∈ outcomes (maskCards b) (maskCards d) ds,
      Reports ranges.length r sd ∧ (∀ p < ranges.length, 0 < totalWeight sd → r.equities[p]? = some (some (equityIn sd p))) ∧
      ∑ i ∈ Finset.range (2 ^ ranges.length), r.winsByMask i = totalWeight sd := by
  obtain ⟨order, batches, s, flag, r0, hist, hrun, ho, hB⟩ := approx_rounds hwf hb hd h1 h
  obtain ⟨m1, m2⟩ := C53_multiple hwf hb hd h
  have hn : batches.length = sent.length - nT := by
    have := hrun.reports.evals
    rw [length_flatten_const fun B hm => (hB B hm).1, m2] at this
    omega
  refine ⟨batches.flatten.map Prod.fst, ⟨order, batches.map fun B => B.map Prod.fst, ho, by rw [List.map_flatten], by rw [List.length_map, hn], ?_⟩,
    batches.flatten, mem_outcomes.2 ⟨rfl, fun x hx => (hrun.legal x hx).2⟩, hrun.reports, fun p hp hpos => ?_,
      hrun.counts.1.maskSum (fun x hx => (deals_wf hwf (hrun.legal x hx).1).1) (by omega)⟩
  · intro B hm
    obtain ⟨B', hm', rfl⟩ := List.mem_map.1 hm
    rw [List.length_map]
    exact hB B' hm'
  · rw [(hrun.calc.exact_shares h8 hw).2 p hp, ← winning_sum]
    unfold fdiv equityIn
    rw [if_neg (by exact_mod_cast hpos.ne')]

/-- C80: if the ranges are combined into one, the simulation evaluates a list of deals that goes round all deals in every batch, and the result
is the equity over one of the outcomes for these deals. -/
theorem C80_outcome (hwf : ∀ r ∈ ranges, WfRange r) (hb : CardMask b) (hd : CardMask d)
    (h1 : (fromRanges (ranges.map fun h => removeConflictingCombos h b d)).length = 1) (h8 : ranges.length ≤ 8) (hw : WholeShares ranges b d)
    (h : ApproxEquity sqrt ranges b d nT target cancelled (.ok r) sent) :
    ∃ ds, Evaluates ranges b d (sent.length - nT) ds ∧ ∃ sd ∈ outcomes (maskCards b) (maskCards d) ds,
      Reports ranges.length r sd ∧ ∀ p < ranges.length, 0 < totalWeight sd → r.equities[p]? = some (some (equityIn sd p)) := by
  obtain ⟨ds, k1, sd, k2, k3, k4, _⟩ := approx_outcome hwf hb hd h1 h8 hw h
  exact ⟨ds, k1, sd, k2, k3, k4⟩

theorem Evaluates.sums {K : Nat} {ds : List (List WHand)} (h : Evaluates ranges b d K ds) {f : List WHand → ℚ} (hf : ∀ dd, 0 ≤ f dd) :
    let D := deals (specRanges ranges) (maskCards b ++ maskCards d)
    (K : ℚ) * (((4096 / D.length : Nat) : ℚ) * (D.map f).sum) ≤ (ds.map f).sum ∧
    (ds.map f).sum ≤ K * ((((4096 + D.length - 1) / D.length : Nat) : ℚ) * (D.map f).sum) := by
  intro D
  obtain ⟨order, batches, ho, rfl, rfl, hB⟩ := h.rounds
  apply sum_flatten
  intro B hm
  obtain ⟨h1, k, h2⟩ := hB B hm
  have := GoesRound.sums h2 (f := f) (fun x _ => hf x)
  rw [h1, ho.length_eq, (ho.map f).sum_eq] at this
  exact this

theorem Evaluates.exact {K : Nat} {ds : List (List WHand)} (h : Evaluates ranges b d K ds)
    (hm : (deals (specRanges ranges) (maskCards b ++ maskCards d)).length ∣ 4096) (f : List WHand → ℚ) :
    let D := deals (specRanges ranges) (maskCards b ++ maskCards d)
    (ds.map f).sum = (K * (4096 / D.length) : Nat) * (D.map f).sum := by
  intro D
  obtain ⟨order, batches, ho, rfl, rfl, hB⟩ := h.rounds
  clear h
  induction batches with
  | nil => simp
  | cons B batches ih =>
    rw [List.flatten_cons, List.map_append, List.sum_append, ih fun B hB' => hB B (List.mem_cons_of_mem _ hB')]
    obtain ⟨h1, k, h2⟩ := hB B (by simp)
    have := GoesRound.sum_exact h2 (by rw [h1, ho.length_eq]; exact hm) f
    rw [h1, ho.length_eq, (ho.map f).sum_eq] at this
    rw [this, List.length_cons]
    push_cast
    ring

theorem Evaluates.mem {K : Nat} {ds : List (List WHand)} (h : Evaluates ranges b d K ds) :
    ds.length = 4096 * K ∧ ∀ dd ∈ ds, dd ∈ deals (specRanges ranges) (maskCards b ++ maskCards d) := by
  obtain ⟨order, batches, ho, rfl, rfl, hB⟩ := h.rounds
  refine ⟨length_flatten_const fun B hm => (hB B hm).1, fun dd hdd => ?_⟩
  obtain ⟨B, hm, hx⟩ := List.mem_flatten.1 hdd
  obtain ⟨_, k, h1, h2⟩ := hB B hm
  obtain ⟨i, hi, rfl⟩ := List.getElem_of_mem hx
  have := h2 i hi
  rw [List.getElem?_eq_getElem hi] at this
  exact ho.subset (List.mem_of_getElem? this.symm)

/-- C80: over the outcomes the mean of the reported equity is the exact one, if the number of deals is a divisor of 4096. -/
theorem C80_mean (hwf : ∀ r ∈ ranges, WfRange r) {K : Nat} (hK : 0 < K) {ds : List (List WHand)} (h : Evaluates ranges b d K ds)
    (hm : (deals (specRanges ranges) (maskCards b ++ maskCards d)).length ∣ 4096)
    (hne : ∀ dd ∈ deals (specRanges ranges) (maskCards b ++ maskCards d), boards (maskCards b) (maskCards d) dd ≠ [])
    {e : ℚ} {p : Nat} (he : equityOf (specRanges ranges) (maskCards b) (maskCards d) p = some e) :
    (mean (outcomes (maskCards b) (maskCards d) ds) fun sd => equityIn sd p) = e := by
  obtain ⟨_, e1⟩ := exact_mean hwf hne he
  rw [outcomes_mean fun dd hdd => hne dd (h.mem.2 dd hdd), h.exact hm, Nat.cast_list_sum, List.map_map, h.exact hm, e1, Nat.cast_list_sum, List.map_map,
    mul_div_mul_left]
  · have : 0 < 4096 / (deals (specRanges ranges) (maskCards b ++ maskCards d)).length :=
      Nat.div_pos (Nat.le_of_dvd (by decide) hm) (Nat.pos_of_dvd_of_pos hm (by decide))
    exact_mod_cast (Nat.mul_pos hK this).ne'

/-- C80: for other numbers `m` of deals, up to 4096, the mean differs from the exact equity at most by one part in `4096 / m`, rounded down. -/
theorem C80_bias (hwf : ∀ r ∈ ranges, WfRange r) {K : Nat} (hK : 0 < K) {ds : List (List WHand)} (h : Evaluates ranges b d K ds)
    (hm : (deals (specRanges ranges) (maskCards b ++ maskCards d)).length ≤ 4096)
    (hne : ∀ dd ∈ deals (specRanges ranges) (maskCards b ++ maskCards d), boards (maskCards b) (maskCards d) dd ≠ [])
    {e : ℚ} {p : Nat} (he : equityOf (specRanges ranges) (maskCards b) (maskCards d) p = some e) :
    |(mean (outcomes (maskCards b) (maskCards d) ds) fun sd => equityIn sd p) - e| ≤
      e / ((4096 / (deals (specRanges ranges) (maskCards b ++ maskCards d)).length : Nat) : ℚ) := by
  obtain ⟨hpos, e1⟩ := exact_mean hwf hne he
  have hDpos : 0 < (deals (specRanges ranges) (maskCards b ++ maskCards d)).length := by
    rw [List.length_pos_iff]
    intro e
    rw [e] at hpos
    exact absurd hpos (lt_irrefl _)
  have hq : 0 < 4096 / (deals (specRanges ranges) (maskCards b ++ maskCards d)).length := Nat.div_pos hm hDpos
  have hq' : (4096 + (deals (specRanges ranges) (maskCards b ++ maskCards d)).length - 1) /
      (deals (specRanges ranges) (maskCards b ++ maskCards d)).length ≤
      4096 / (deals (specRanges ranges) (maskCards b ++ maskCards d)).length + 1 := by
    by_cases hz : 4096 % (deals (specRanges ranges) (maskCards b ++ maskCards d)).length = 0
    · rw [ceil_zero hDpos hz]; omega
    · rw [ceil_pos hDpos hz]
  have hde : ∀ dd, 0 ≤ (Spec.dealWeight dd : ℚ) * dealEquity (maskCards b) (maskCards d) p dd := fun dd =>
    mul_nonneg (Nat.cast_nonneg _) (mean_nonneg fun B _ => (potShare_range p (dd, B)).1)
  obtain ⟨a1, a2⟩ := h.sums hde
  obtain ⟨b1, b2⟩ := h.sums (f := fun dd => (Spec.dealWeight dd : ℚ)) fun dd => Nat.cast_nonneg _
  rw [outcomes_mean fun dd hdd => hne dd (h.mem.2 dd hdd)]
  have hc : ∀ l : List (List WHand), (((l.map Spec.dealWeight).sum : Nat) : ℚ) = (l.map fun dd => (Spec.dealWeight dd : ℚ)).sum := fun l => by
    rw [Nat.cast_list_sum, List.map_map]
    rfl
  have hW0 : (0 : ℚ) < ((deals (specRanges ranges) (maskCards b ++ maskCards d)).map fun dd => (Spec.dealWeight dd : ℚ)).sum := by
    rw [← hc]
    exact_mod_cast hpos
  rw [e1, hc, hc]
  exact (ratio_near (by exact_mod_cast hq) (by exact_mod_cast hq') (by exact_mod_cast hK)
    (List.sum_nonneg (by simpa using fun dd _ => hde dd)) hW0 a1 a2 b1 b2).2

/-- C80: at most one part in `4 N ε ^ 2` of the outcomes deviates by `ε` or more from the mean, where `N` is the number of evaluations, if all
deals have the same weight; and `w / W` times as many if `w` is the greatest and `W` the mean weight of the deals evaluated. -/
theorem C80_accuracy {K : Nat} {ds : List (List WHand)} (h : Evaluates ranges b d K ds)
    (hne : ∀ dd ∈ deals (specRanges ranges) (maskCards b ++ maskCards d), boards (maskCards b) (maskCards d) dd ≠ [])
    {wmax : Nat} (hw : ∀ dd ∈ ds, Spec.dealWeight dd ≤ wmax) (h0 : 0 < (ds.map Spec.dealWeight).sum) (p : Nat) {ε : ℚ} (hε : 0 < ε) :
    let Ω := outcomes (maskCards b) (maskCards d) ds
    ((Ω.countP fun sd => decide (ε ≤ |equityIn sd p - mean Ω fun sd => equityIn sd p|) : Nat) : ℚ) ≤
      Ω.length * (wmax / (4 * ((ds.map Spec.dealWeight).sum : Nat) * ε ^ 2)) := by
  intro Ω
  have h1 := chebyshev Ω (fun sd => equityIn sd p) hε.le
  have h2 := outcomes_variance_le (p := p) (fun dd hdd => hne dd (h.mem.2 dd hdd)) hw
  have hpos : (0 : ℚ) < ((ds.map Spec.dealWeight).sum : Nat) := by exact_mod_cast h0
  rw [← mul_le_mul_iff_left₀ (show 0 < ε ^ 2 by positivity)]
  refine h1.trans ((mul_le_mul_of_nonneg_left h2 (Nat.cast_nonneg _)).trans (le_of_eq ?_))
  field_simp

/-- C80: with equal weights. -/
theorem C80_equal_weights {K : Nat} (hK : 0 < K) {ds : List (List WHand)} (h : Evaluates ranges b d K ds)
    (hne : ∀ dd ∈ deals (specRanges ranges) (maskCards b ++ maskCards d), boards (maskCards b) (maskCards d) dd ≠ [])
    {w : Nat} (hw0 : 0 < w) (hw : ∀ dd ∈ deals (specRanges ranges) (maskCards b ++ maskCards d), Spec.dealWeight dd = w) (p : Nat) {ε : ℚ} (hε : 0 < ε) :
    let Ω := outcomes (maskCards b) (maskCards d) ds
    ((Ω.countP fun sd => decide (ε ≤ |equityIn sd p - mean Ω fun sd => equityIn sd p|) : Nat) : ℚ) ≤ Ω.length / (4 * (4096 * K) * ε ^ 2) := by
  intro Ω
  obtain ⟨hl, hmem⟩ := h.mem
  have hsum : (ds.map Spec.dealWeight).sum = 4096 * K * w := by
    rw [List.eq_replicate_of_mem (l := ds.map Spec.dealWeight) (a := w) ?_, List.sum_replicate, List.length_map, hl, smul_eq_mul]
    intro y hy
    obtain ⟨dd, hdd, rfl⟩ := List.mem_map.1 hy
    exact hw dd (hmem dd hdd)
  have := C80_accuracy h hne (wmax := w) (fun dd hdd => (hw dd (hmem dd hdd)).le) (by rw [hsum]; positivity) p hε
  refine this.trans (le_of_eq ?_)
  rw [hsum]
  show (Ω.length : ℚ) * _ = _
  have hK' : (0 : ℚ) < K := by exact_mod_cast hK
  have hw' : (0 : ℚ) < w := by exact_mod_cast hw0
  push_cast
  field_simp

/-- If anything is evaluated, every deal has boards. -/
theorem Evaluates.boards {K : Nat} (hwf : ∀ r ∈ ranges, WfRange r) (hK : 0 < K) {ds : List (List WHand)} (h : Evaluates ranges b d K ds)
    {sd : List (List WHand × List Nat)} (hsd : sd ∈ outcomes (maskCards b) (maskCards d) ds) :
    ∀ dd ∈ deals (specRanges ranges) (maskCards b ++ maskCards d), boards (maskCards b) (maskCards d) dd ≠ [] := by
  intro dd hdd
  obtain ⟨hl, hmem⟩ := h.mem
  obtain ⟨e1, e2⟩ := mem_outcomes.1 hsd
  match hds : sd with
  | [] => rw [← e1] at hl; simp at hl; omega
  | x :: sd' =>
    have hx : x.1 ∈ ds := by rw [← e1]; simp
    have h1 := List.length_pos_of_mem (e2 x (by simp))
    rw [boards_length hwf (hmem _ hx)] at h1
    rw [← List.length_pos_iff, boards_length hwf hdd]
    exact h1

/-- C80: the variance of the equity over the outcomes, if the number of deals is a divisor of 4096: it falls with the number of evaluations. -/
theorem C80_variance {K : Nat} (hK : 0 < K) {ds : List (List WHand)} (h : Evaluates ranges b d K ds)
    (hm : (deals (specRanges ranges) (maskCards b ++ maskCards d)).length ∣ 4096)
    (hne : ∀ dd ∈ deals (specRanges ranges) (maskCards b ++ maskCards d), Spec.boards (maskCards b) (maskCards d) dd ≠ []) (p : Nat) :
    let D := deals (specRanges ranges) (maskCards b ++ maskCards d)
    (variance (outcomes (maskCards b) (maskCards d) ds) fun sd => equityIn sd p) =
      (D.map fun dd => (Spec.dealWeight dd : ℚ) ^ 2 * dealVariance (maskCards b) (maskCards d) p dd).sum /
        ((D.map fun dd => (Spec.dealWeight dd : ℚ)).sum ^ 2 * (K * (4096 / D.length) : Nat)) := by
  intro D
  have hq : (0 : ℚ) < (K * (4096 / D.length) : Nat) := by
    exact_mod_cast Nat.mul_pos hK (Nat.div_pos (Nat.le_of_dvd (by decide) hm) (Nat.pos_of_dvd_of_pos hm (by decide)))
  rw [outcomes_variance fun dd hdd => hne dd (h.mem.2 dd hdd), Nat.cast_list_sum, List.map_map, h.exact hm, h.exact hm]
  show ((K * (4096 / D.length) : Nat) : ℚ) * (D.map fun dd => (Spec.dealWeight dd : ℚ) ^ 2 * dealVariance (maskCards b) (maskCards d) p dd).sum / (((K * (4096 / D.length) : Nat) : ℚ) * (D.map fun dd => (Spec.dealWeight dd : ℚ)).sum) ^ 2 = _
  generalize ((K * (4096 / D.length) : Nat) : ℚ) = Q at hq
  generalize (D.map fun dd => (Spec.dealWeight dd : ℚ)).sum = W
  generalize (D.map fun dd => (Spec.dealWeight dd : ℚ) ^ 2 * dealVariance (maskCards b) (maskCards d) p dd).sum = V
  by_cases hW : W = 0
  · rw [hW]; simp
  · field_simp

/-- C80: with known hands and without ties the variance is that of tossing coins. -/
theorem C80_known {K : Nat} (hK : 0 < K) {ds : List (List WHand)} (h : Evaluates ranges b d K ds) {dd : List WHand}
    (hD : deals (specRanges ranges) (maskCards b ++ maskCards d) = [dd]) (hw : 0 < Spec.dealWeight dd)
    (hne : Spec.boards (maskCards b) (maskCards d) dd ≠ []) {p : Nat}
    (hp : ∀ B ∈ Spec.boards (maskCards b) (maskCards d) dd, potShare p (dd, B) = 0 ∨ potShare p (dd, B) = 1) :
    let e := dealEquity (maskCards b) (maskCards d) p dd
    (variance (outcomes (maskCards b) (maskCards d) ds) fun sd => equityIn sd p) = e * (1 - e) / (4096 * K : Nat) := by
  intro e
  rw [C80_variance hK h (by rw [hD]; exact one_dvd _) (by rw [hD]; simpa using hne), hD]
  have hw' : (0 : ℚ) < Spec.dealWeight dd := by exact_mod_cast hw
  have hK' : (0 : ℚ) < K := by exact_mod_cast hK
  have hv : dealVariance (maskCards b) (maskCards d) p dd = e * (1 - e) := variance_indicator hne hp
  simp only [List.map_cons, List.map_nil, List.sum_cons, List.sum_nil, add_zero, List.length_cons, List.length_nil, hv]
  push_cast
  field_simp

/-- C80: the chance of being right.  Two players with known hands, one of whom wins on exactly half of the boards and loses on the others: of
`N` evaluations, less than one part in `√N` of the outcomes has an equity that is closer to one half than `1 / N`. -/
theorem C80_even {K : Nat} (hK : 0 < K) {ds : List (List WHand)} (h : Evaluates ranges b d K ds) {dd : List WHand}
    (hD : deals (specRanges ranges) (maskCards b ++ maskCards d) = [dd]) (hw : 0 < Spec.dealWeight dd) {p : Nat}
    (hp : ∀ B ∈ Spec.boards (maskCards b) (maskCards d) dd, potShare p (dd, B) = 0 ∨ potShare p (dd, B) = 1)
    (hhalf : 2 * (Spec.boards (maskCards b) (maskCards d) dd).countP (fun B => decide (potShare p (dd, B) = 1)) =
      (Spec.boards (maskCards b) (maskCards d) dd).length) :
    let Ω := outcomes (maskCards b) (maskCards d) ds
    (Ω.countP fun sd => decide (|equityIn sd p - 1 / 2| < 1 / (4096 * K))) ^ 2 * (4096 * K + 1) ≤ Ω.length ^ 2 := by
  intro Ω
  obtain ⟨hl, hmem⟩ := h.mem
  rw [hD] at hmem
  have hds : ds = List.replicate (2 * (2048 * K)) dd := by
    rw [List.eq_replicate_iff]
    exact ⟨by omega, fun x hx => by simpa using hmem x hx⟩
  have hΩ : Ω = choices (List.replicate (2 * (2048 * K)) ((Spec.boards (maskCards b) (maskCards d) dd).map fun B => (dd, B))) := by
    show outcomes _ _ _ = _
    unfold outcomes
    rw [hds, List.map_replicate]
  set l := (Spec.boards (maskCards b) (maskCards d) dd).map fun B => (dd, B) with hldef
  set P : List WHand × List Nat → Bool := fun x => decide (potShare p x = 1) with hP
  have hlen : 2 * l.countP P = l.length := by
    rw [hldef, List.countP_map, List.length_map, ← hhalf]
    rfl
  have hnot : l.countP (fun x => !P x) = l.countP P := by
    have := List.length_eq_countP_add_countP P (l := l)
    have e : l.countP (fun x => !P x) = l.countP (fun a => ¬ P a = true) := by
      congr 1; funext a; cases P a <;> rfl
    omega
  have hle : (Ω.countP fun sd => decide (|equityIn sd p - 1 / 2| < 1 / (4096 * K))) ≤ Ω.countP fun c => c.countP P == 2048 * K := by
    apply List.countP_mono_left
    intro sd hsd hc
    rw [decide_eq_true_iff] at hc
    rw [beq_iff_eq]
    obtain ⟨e1, e2⟩ := mem_outcomes.1 hsd
    have hx : ∀ x ∈ sd, x.1 = dd := fun x hx => by
      have : x.1 ∈ ds := by rw [← e1]; exact List.mem_map_of_mem hx
      simpa using hmem _ this
    have hsum : ∀ sd : List (List WHand × List Nat), (∀ x ∈ sd, x.1 = dd ∧ x.2 ∈ Spec.boards (maskCards b) (maskCards d) x.1) →
        (sd.map (winning p)).sum = (Spec.dealWeight dd : ℚ) * (sd.countP P : Nat) := by
      intro sd
      induction sd with
      | nil => simp
      | cons x sd ih =>
        intro hall
        obtain ⟨g1, g2⟩ := hall x (by simp)
        rw [List.map_cons, List.sum_cons, ih fun y hy => hall y (by simp [hy]), winning_eq, g1, List.countP_cons]
        have hx' : x = (dd, x.2) := by rw [← g1]
        rw [g1] at g2
        have := hp x.2 g2
        rw [← hx'] at this
        rcases this with e | e
        · have hPx : P x = false := by rw [hP]; simp only [e]; decide
          rw [e, hPx]; simp
        · have hPx : P x = true := by rw [hP]; simp only [e]; decide
          rw [e, hPx]; push_cast; simp; ring
    have hwt : totalWeight sd = (4096 * K) * Spec.dealWeight dd := by
      rw [outcomes_weight hsd, hds, List.map_replicate, List.sum_replicate, smul_eq_mul]
      ring
    unfold equityIn at hc
    rw [hsum sd fun x hx' => ⟨hx x hx', e2 x hx'⟩, hwt] at hc
    have hw' : (0 : ℚ) < Spec.dealWeight dd := by exact_mod_cast hw
    have hK' : (0 : ℚ) < K := by exact_mod_cast hK
    push_cast at hc
    rw [show (Spec.dealWeight dd : ℚ) * (sd.countP P : Nat) / (4096 * K * Spec.dealWeight dd) - 1 / 2 =
      (((sd.countP P : Nat) : ℚ) - 2048 * K) / (4096 * K) by field_simp; ring, abs_div, abs_of_pos (show (0 : ℚ) < 4096 * K by positivity),
      div_lt_div_iff_of_pos_right (by positivity), abs_lt] at hc
    obtain ⟨c1, c2⟩ := hc
    have c3 : (2048 * K : Nat) < sd.countP P + 1 := by
      have : ((2048 * K : Nat) : ℚ) < (sd.countP P + 1 : Nat) := by push_cast; linarith
      exact_mod_cast this
    have c4 : sd.countP P < 2048 * K + 1 := by
      have : ((sd.countP P : Nat) : ℚ) < (2048 * K + 1 : Nat) := by push_cast; linarith
      exact_mod_cast this
    omega
  refine (Nat.mul_le_mul_right _ (Nat.pow_le_pow_left hle 2)).trans ?_
  rw [hΩ, countP_choices, choices_length, List.map_replicate, List.prod_replicate, hnot, ← hlen]
  have hc := centralBinom_sq (2048 * K)
  rw [Nat.centralBinom_eq_two_mul_choose] at hc
  rw [show 2 * (2048 * K) - 2048 * K = 2048 * K by omega]
  generalize l.countP P = a
  generalize (2 * (2048 * K)).choose (2048 * K) = C at hc
  have e1 : (C * a ^ (2048 * K) * a ^ (2048 * K)) ^ 2 * (4096 * K + 1) = C ^ 2 * (2 * (2048 * K) + 1) * (a ^ (2048 * K)) ^ 4 := by ring
  have e2 : ((2 * a) ^ (2 * (2048 * K))) ^ 2 = 16 ^ (2048 * K) * (a ^ (2048 * K)) ^ 4 := by
    rw [show (16 : Nat) = 2 ^ 4 by norm_num, ← pow_mul, ← pow_mul, ← pow_mul, mul_pow]
    congr 1 <;> (congr 1; ring)
  rw [e1, e2]
  exact Nat.mul_le_mul_right _ hc

/-- C80: any boards can come up: for every choice of a board for each thread, each of 4096 evaluations and each deal there is a run that evaluates
the boards chosen. -/
theorem C80_boards (sqrt : ℚ → ℚ) (target : ℚ) (hwf : ∀ r ∈ ranges, WfRange r) (hb : CardMask b) (hd : CardMask d)
    (hv : validate ranges.length b d = none) (hne : deals (specRanges ranges) (maskCards b ++ maskCards d) ≠ []) (nT : Nat) (cancelled : Bool)
    (f : Nat → Nat → List WHand → List Nat)
    (hf : ∀ t i, ∀ dd ∈ deals (specRanges ranges) (maskCards b ++ maskCards d), f t i dd ∈ Spec.boards (maskCards b) (maskCards d) dd) :
    ∃ r sent, ∃ ds : Nat → List (List WHand), ApproxEquity sqrt ranges b d nT target cancelled (.ok r) sent ∧ sent.length = 2 * nT ∧
      (∀ t < nT, (ds t).length = 4096 ∧ ∀ dd ∈ ds t, dd ∈ deals (specRanges ranges) (maskCards b ++ maskCards d)) ∧
      Reports ranges.length r ((List.range nT).flatMap fun t => (ds t).mapIdx fun i dd => (dd, f t i dd)) := by
  obtain ⟨s0, hs0⟩ := prepare_of_deal hwf hb hd hv hne
  obtain ⟨s, hp⟩ := C39_approx_ok hs0
  obtain ⟨r, sent, flag, r0, hist, ds, h1, h2, h3, h4⟩ := exists_choice sqrt target hwf hb hd hp hne nT cancelled f hf
  exact ⟨r, sent, ds, h1, h2, h3, h4.reports⟩

theorem flatMap_chunks {α : Type} (l : List α) (m k : Nat) : ((List.range k).flatMap fun t => (l.drop (m * t)).take m) = l.take (m * k) := by
  induction k with
  | zero => simp
  | succ k ih => rw [List.range_succ, List.flatMap_append, ih, Nat.mul_succ, List.take_add]; simp

/-- C80: with known hands every outcome is possible: for every list of `4096 * nT` boards there is a run that evaluates them. -/
theorem C80_every_outcome (sqrt : ℚ → ℚ) (target : ℚ) (hwf : ∀ r ∈ ranges, WfRange r) (hb : CardMask b) (hd : CardMask d)
    (hv : validate ranges.length b d = none) {dd : List WHand} (hD : deals (specRanges ranges) (maskCards b ++ maskCards d) = [dd])
    (hT : 0 < nT) (cancelled : Bool) {sd : List (List WHand × List Nat)}
    (hsd : sd ∈ outcomes (maskCards b) (maskCards d) (List.replicate (4096 * nT) dd)) :
    ∃ r sent, ApproxEquity sqrt ranges b d nT target cancelled (.ok r) sent ∧ sent.length = 2 * nT ∧ Reports ranges.length r sd := by
  obtain ⟨e1, e2⟩ := mem_outcomes.1 hsd
  have hlen : sd.length = 4096 * nT := by rw [← List.length_map (f := Prod.fst), e1, List.length_replicate]
  have hx : ∀ x ∈ sd, x.1 = dd := fun x hx => by
    have : x.1 ∈ List.replicate (4096 * nT) dd := by rw [← e1]; exact List.mem_map_of_mem hx
    exact List.eq_of_mem_replicate this
  obtain ⟨x0, hx0⟩ := List.exists_mem_of_length_pos (l := sd) (by omega)
  obtain ⟨r, sent, ds, h1, h2, h3, h4⟩ := C80_boards sqrt target hwf hb hd hv (by rw [hD]; simp) nT cancelled
    (fun t i _ => (sd.getD (4096 * t + i) x0).2) (by
      intro t i dd' hdd'
      rw [hD, List.mem_singleton] at hdd'
      subst hdd'
      have : sd.getD (4096 * t + i) x0 ∈ sd := by
        rw [List.getD_eq_getElem?_getD]
        by_cases hi : 4096 * t + i < sd.length
        · rw [List.getElem?_eq_getElem hi]; exact List.getElem_mem hi
        · rw [List.getElem?_eq_none (by omega)]; exact hx0
      have h5 := e2 _ this
      rw [hx _ this] at h5
      exact h5)
  refine ⟨r, sent, h1, h2, ?_⟩
  convert h4 using 1
  refine (List.take_of_length_le (l := sd) (i := 4096 * nT) (by omega)).symm.trans ?_
  rw [← flatMap_chunks, List.flatMap_def, List.flatMap_def]
  congr 1
  apply List.map_congr_left
  intro t ht
  have ht := List.mem_range.1 ht
  obtain ⟨g1, g2⟩ := h3 t ht
  apply List.ext_getElem
  · rw [List.length_mapIdx, g1, List.length_take, List.length_drop]; omega
  · intro i hi hi'
    rw [List.length_mapIdx, g1] at hi'
    have hlt : 4096 * t + i < sd.length := by omega
    rw [List.getElem_mapIdx, List.getElem_take, List.getElem_drop]
    have hdd : (ds t)[i] = dd := by
      have := g2 _ (List.getElem_mem (by omega : i < (ds t).length))
      rw [hD] at this
      exact List.mem_singleton.1 this
    rw [hdd, List.getD_eq_getElem?_getD, List.getElem?_eq_getElem hlt]
    exact Prod.ext (hx _ (List.getElem_mem hlt)) rfl

/-- C80: the floating-point model.  With a target of at least `1 / 31622` each thread evaluates one batch, and the result is the equity over
one of the outcomes, rounded once. -/
theorem C80_float (hwf : ∀ r ∈ ranges, WfRange r) (hb : CardMask b) (hd : CardMask d)
    (h1 : (fromRanges (ranges.map fun h => removeConflictingCombos h b d)).length = 1) (h8 : ranges.length ≤ 8) (hw : WholeShares ranges b d)
    {T : ℚ} (htg : 1 / 31622 ≤ T) {prog : Option ℚ → Nat} (h : ApproxEquityF devF prog ranges b d nT T cancelled (.ok r) sent) :
    ∃ ds, Evaluates ranges b d nT ds ∧ ∃ sd ∈ outcomes (maskCards b) (maskCards d) ds,
      ∀ p < ranges.length, 0 < totalWeight sd → totalWeight sd ≤ 2 ^ 53 → r.equities[p]? = some (some (fl (equityIn sd p))) := by
  obtain ⟨_, hsent⟩ := C70_one_batch hwf hb hd h1 htg h
  obtain ⟨r1, sent1, g1, g2, g3⟩ := C63_approx_mode hwf hb hd h
  obtain ⟨ds, k1, sd, k2, k3, k4, hsum⟩ := approx_outcome hwf hb hd h1 h8 hw g1
  rw [show sent1.length - nT = nT by omega] at k1
  refine ⟨ds, k1, sd, k2, fun p hp h0 h53 => ?_⟩
  rw [g2.once (by rw [hsum]; exact h53), List.getElem?_map, k4 p hp h0]
  rfl

/-- C80 (finding): the target is not what the accuracy depends on.  Let the hands be known and one player win on half of the boards and lose on
the others.  For every target of at least `1 / 31622`, that is 0.003 %, one thread makes 4096 evaluations.  The standard deviation of the result
is `1 / 128`, that is 0.8 %, and for at most one outcome in 64 the result is closer to the equity than `1 / 4096`, which is seven times the
target. -/
theorem C80_missed (hwf : ∀ r ∈ ranges, WfRange r) (hb : CardMask b) (hd : CardMask d)
    (h1 : (fromRanges (ranges.map fun h => removeConflictingCombos h b d)).length = 1) (h8 : ranges.length ≤ 8) (hws : WholeShares ranges b d)
    {dd : List WHand} (hD : deals (specRanges ranges) (maskCards b ++ maskCards d) = [dd]) (hw : 0 < Spec.dealWeight dd) {p : Nat}
    (hp : ∀ B ∈ Spec.boards (maskCards b) (maskCards d) dd, potShare p (dd, B) = 0 ∨ potShare p (dd, B) = 1)
    (hhalf : 2 * (Spec.boards (maskCards b) (maskCards d) dd).countP (fun B => decide (potShare p (dd, B) = 1)) =
      (Spec.boards (maskCards b) (maskCards d) dd).length)
    {T : ℚ} (htg : 1 / 31622 ≤ T) {prog : Option ℚ → Nat} (h : ApproxEquityF devF prog ranges b d 1 T cancelled (.ok r) sent) :
    ∃ ds, Evaluates ranges b d 1 ds ∧
      (variance (outcomes (maskCards b) (maskCards d) ds) fun sd => equityIn sd p) = (1 / 128) ^ 2 ∧
      64 * ((outcomes (maskCards b) (maskCards d) ds).countP fun sd => decide (|equityIn sd p - 1 / 2| < 1 / 4096)) ≤
        (outcomes (maskCards b) (maskCards d) ds).length := by
  obtain ⟨ds, k1, sd, k2, _⟩ := C80_float hwf hb hd h1 h8 hws htg h
  have hne := k1.boards hwf one_pos k2
  rw [hD] at hne
  have hne : Spec.boards (maskCards b) (maskCards d) dd ≠ [] := hne dd (by simp)
  refine ⟨ds, k1, ?_, ?_⟩
  · rw [C80_known one_pos k1 hD hw hne hp]
    have he : dealEquity (maskCards b) (maskCards d) p dd = 1 / 2 := by
      unfold dealEquity mean
      have hs : ∀ l : List (List Nat), (∀ B ∈ l, potShare p (dd, B) = 0 ∨ potShare p (dd, B) = 1) →
          (l.map fun B => potShare p (dd, B)).sum = (l.countP (fun B => decide (potShare p (dd, B) = 1)) : Nat) := by
        intro l
        induction l with
        | nil => simp
        | cons B l ih =>
          intro hl
          rw [List.map_cons, List.sum_cons, ih fun B hB => hl B (by simp [hB]), List.countP_cons]
          rcases hl B (by simp) with e | e
          · rw [e, if_neg (by decide)]; simp
          · rw [e, if_pos (by decide)]; push_cast; ring
      have hpos : 0 < (Spec.boards (maskCards b) (maskCards d) dd).countP (fun B => decide (potShare p (dd, B) = 1)) := by
        have := List.length_pos_iff.2 hne
        omega
      have hpos' : (0 : ℚ) < ((Spec.boards (maskCards b) (maskCards d) dd).countP (fun B => decide (potShare p (dd, B) = 1)) : Nat) := by
        exact_mod_cast hpos
      rw [hs _ hp, ← hhalf]
      push_cast
      field_simp
    rw [he]
    norm_num
  · have := C80_even one_pos k1 hD hw hp hhalf
    simp only [Nat.cast_one, mul_one] at this
    nlinarith

/-! ## Examples -/

/-- Threes against ten and five of diamonds, on a board with two diamonds. -/
def evenRanges : List (List Combo) := [[⟨4, 5, 100⟩], [⟨15, 35, 100⟩]]

def evenBoard : Nat := 2 ^ 9 + 2 ^ 16 + 2 ^ 19 + 2 ^ 27

theorem even_wf : ∀ r ∈ evenRanges, WfRange r := by unfold WfRange evenRanges; decide
theorem even_deck : CardMask evenBoard := by unfold CardMask; decide

theorem even_single : (fromRanges (evenRanges.map fun h => removeConflictingCombos h evenBoard 0)).length = 1 :=
  C66_single (by decide) (by decide +kernel)

theorem even_deals : deals (specRanges evenRanges) (maskCards evenBoard ++ maskCards 0) = [[⟨4, 5, 100⟩, ⟨15, 35, 100⟩]] := by
  decide +kernel

theorem even_facts : (boards (maskCards evenBoard) (maskCards 0) [⟨4, 5, 100⟩, ⟨15, 35, 100⟩]).length = 44 ∧
    (boards (maskCards evenBoard) (maskCards 0) [⟨4, 5, 100⟩, ⟨15, 35, 100⟩]).countP
      (fun B => decide (potShare 0 ([⟨4, 5, 100⟩, ⟨15, 35, 100⟩], B) = 1)) = 22 ∧
    (∀ B ∈ boards (maskCards evenBoard) (maskCards 0) [⟨4, 5, 100⟩, ⟨15, 35, 100⟩],
      potShare 0 ([⟨4, 5, 100⟩, ⟨15, 35, 100⟩], B) = 0 ∨ potShare 0 ([⟨4, 5, 100⟩, ⟨15, 35, 100⟩], B) = 1) ∧
    (∀ x ∈ showdowns (specRanges evenRanges) (maskCards evenBoard) (maskCards 0), (winners x.2 x.1).length = 1) ∧
    equityOf (specRanges evenRanges) (maskCards evenBoard) (maskCards 0) 0 = some (1 / 2) := by decide +kernel

/-- If the input is valid and some deal is possible, the floating-point model has completed runs, for all targets from `2 ^ -20` on. -/
theorem approxF_of_deal (hwf : ∀ r ∈ ranges, WfRange r) (hb : CardMask b) (hd : CardMask d) (hv : validate ranges.length b d = none)
    (hdeal : deals (specRanges ranges) (maskCards b ++ maskCards d) ≠ []) {T : ℚ} (hT : 1 / 2 ^ 20 ≤ T) (hnT : nT ≤ 255)
    (prog : Option ℚ → Nat) (cancelled : Bool) : ∃ r sent, ApproxEquityF devF prog ranges b d nT T cancelled (.ok r) sent := by
  obtain ⟨s0, hs0⟩ := prepare_of_deal hwf hb hd hv hdeal
  obtain ⟨s, hp⟩ := C39_approx_ok hs0
  have h : McReady ranges b d s := ⟨hwf, hb, hd, hp⟩
  obtain ⟨s0, hs0, _, hs⟩ := h.exact
  have ha := prepareExact_ok hs0
  obtain ⟨r0, flag, hst⟩ := start_some_of (d := d) hwf (s := s) h.fields.2.1 h.fields.2.2.2.2.2.2.2.2.2 (by rw [hs, ha.sim]; rfl)
  obtain ⟨v, h1, h2⟩ := C70_completes (cancelled := cancelled) (prog := prog) h hst hT hnT .refl
  exact ⟨_, _, _, h.ok, r0, flag, v, hst, h1, h2, rfl, rfl⟩

theorem even_run : ∃ r sent, ApproxEquityF devF (progF (1 / 31622)) evenRanges evenBoard 0 1 (1 / 31622) false (.ok r) sent := by
  have hwf := even_wf
  have hb := even_deck
  have hv : validate evenRanges.length evenBoard 0 = none := by decide +kernel
  have hne : deals (specRanges evenRanges) (maskCards evenBoard ++ maskCards 0) ≠ [] := by decide +kernel
  generalize evenRanges = rs at *
  generalize evenBoard = bd at *
  exact approxF_of_deal hwf hb zero_deck hv hne (by norm_num) (by norm_num) _ _

theorem even_whole : WholeShares evenRanges evenBoard 0 := fun x hx => by rw [even_facts.2.2.2.1 x hx]; exact one_dvd _

/-- The hypotheses of `C80_missed` are met: there is a run, and all runs miss the target with almost all outcomes. -/
example : ∃ r sent ds, ApproxEquityF devF (progF (1 / 31622)) evenRanges evenBoard 0 1 (1 / 31622) false (.ok r) sent ∧
    Evaluates evenRanges evenBoard 0 1 ds ∧
    (variance (outcomes (maskCards evenBoard) (maskCards 0) ds) fun sd => equityIn sd 0) = (1 / 128) ^ 2 ∧
    64 * ((outcomes (maskCards evenBoard) (maskCards 0) ds).countP fun sd => decide (|equityIn sd 0 - 1 / 2| < 1 / 4096)) ≤
      (outcomes (maskCards evenBoard) (maskCards 0) ds).length := by
  have hwf := even_wf
  have hb := even_deck
  have hs := even_single
  have h8 : evenRanges.length ≤ 8 := by decide
  have hD := even_deals
  have hw : 0 < Spec.dealWeight [⟨4, 5, 100⟩, ⟨15, 35, 100⟩] := by decide
  have hF := even_facts
  have hWh := even_whole
  obtain ⟨r, sent, h⟩ := even_run
  generalize evenRanges = rs at *
  generalize evenBoard = bd at *
  generalize ([⟨4, 5, 100⟩, ⟨15, 35, 100⟩] : List WHand) = dd at *
  obtain ⟨ds, k1, k2, k3⟩ := C80_missed hwf hb zero_deck hs h8 hWh hD hw hF.2.2.1 (by rw [hF.1, hF.2.1]) le_rfl h
  exact ⟨r, sent, ds, h, k1, k2, k3⟩

/-- Its exact equity is one half, and so is the mean over the outcomes; at most one outcome in six is off by two percent or more. -/
example : ∃ ds, Evaluates evenRanges evenBoard 0 1 ds ∧
    (mean (outcomes (maskCards evenBoard) (maskCards 0) ds) fun sd => equityIn sd 0) = 1 / 2 ∧
    (((outcomes (maskCards evenBoard) (maskCards 0) ds).countP fun sd => decide (1 / 50 ≤ |equityIn sd 0 - 1 / 2|) : Nat) : ℚ) ≤
      (outcomes (maskCards evenBoard) (maskCards 0) ds).length / 6 := by
  have hwf := even_wf
  have hb := even_deck
  have hs := even_single
  have h8 : evenRanges.length ≤ 8 := by decide
  have hD := even_deals
  have hw : Spec.dealWeight [⟨4, 5, 100⟩, ⟨15, 35, 100⟩] = 10000 := by decide
  have hF := even_facts
  have hWh := even_whole
  obtain ⟨r, sent, h⟩ := even_run
  generalize evenRanges = rs at *
  generalize evenBoard = bd at *
  generalize ([⟨4, 5, 100⟩, ⟨15, 35, 100⟩] : List WHand) = dd at *
  obtain ⟨ds, k1, sd, k2, _⟩ := C80_float hwf hb zero_deck hs h8 hWh le_rfl h
  have hne := k1.boards hwf one_pos k2
  have hm := C80_mean hwf one_pos k1 (by rw [hD]; exact one_dvd _) hne hF.2.2.2.2
  refine ⟨ds, k1, hm, ?_⟩
  have := C80_equal_weights one_pos k1 hne (w := 10000) (by decide) (by rw [hD]; simpa using hw) 0 (ε := 1 / 50) (by norm_num)
  simp only [hm] at this
  refine this.trans ?_
  norm_num
  have : (0 : ℚ) ≤ (outcomes (maskCards bd) (maskCards 0) ds).length := Nat.cast_nonneg _
  linarith

theorem weightOf_replicate (P : List WHand × List Nat → Prop) [DecidablePred P] (x : List WHand × List Nat) (n : Nat) :
    weightOf (List.replicate n x) P = if P x then n * Spec.dealWeight x.1 else 0 := by
  unfold weightOf
  by_cases h : P x
  · rw [if_pos h, List.filter_replicate, if_pos (by simpa using h), List.map_replicate, List.sum_replicate, smul_eq_mul]
  · rw [if_neg h, List.filter_replicate, if_neg (by simpa using h)]
    rfl

/-- With `C80_every_outcome`: there is a run in which the hand with an equity of one half wins all 4096 showdowns. -/
example (sqrt : ℚ → ℚ) (target : ℚ) : ∃ r sent, ApproxEquity sqrt evenRanges evenBoard 0 1 target false (.ok r) sent ∧
    r.wins 0 = 40960000 ∧ r.wins 1 = 0 := by
  have hwf := even_wf
  have hb := even_deck
  have hD := even_deals
  have h2 : evenRanges.length = 2 := rfl
  have hv : validate evenRanges.length evenBoard 0 = none := by decide +kernel
  have hB : [9, 16, 19, 27, 0] ∈ boards (maskCards evenBoard) (maskCards 0) [⟨4, 5, 100⟩, ⟨15, 35, 100⟩] := by decide +kernel
  have hw : winners [9, 16, 19, 27, 0] [⟨4, 5, 100⟩, ⟨15, 35, 100⟩] = [0] := by decide +kernel
  have hdw : Spec.dealWeight [⟨4, 5, 100⟩, ⟨15, 35, 100⟩] = 10000 := by decide
  generalize evenRanges = rs at *
  generalize evenBoard = bd at *
  generalize ([⟨4, 5, 100⟩, ⟨15, 35, 100⟩] : List WHand) = dd at *
  obtain ⟨r, sent, k1, _, k2⟩ := C80_every_outcome sqrt target hwf hb zero_deck hv hD one_pos false
    (sd := List.replicate (4096 * 1) (dd, [9, 16, 19, 27, 0]))
    (mem_outcomes.2 ⟨by rw [List.map_replicate], fun x hx => by rw [List.eq_of_mem_replicate hx]; exact hB⟩)
  refine ⟨r, sent, k1, ?_, ?_⟩
  · rw [k2.wins (by omega) 0 (by omega)]
    unfold winsOf
    rw [weightOf_replicate, if_pos hw, hdw]
  · rw [k2.wins (by omega) 1 (by omega)]
    unfold winsOf
    rw [weightOf_replicate, if_neg (by show winners _ dd ≠ _; rw [hw]; decide)]

/-- With three deals the mean differs from the equity at most by one part in 1365. -/
example {e : ℚ} {K : Nat} (hK : 0 < K) {ds : List (List WHand)} (hwf : ∀ r ∈ ranges, WfRange r) (h : Evaluates ranges b d K ds)
    (h3 : (deals (specRanges ranges) (maskCards b ++ maskCards d)).length = 3)
    (hne : ∀ dd ∈ deals (specRanges ranges) (maskCards b ++ maskCards d), boards (maskCards b) (maskCards d) dd ≠ [])
    (he : equityOf (specRanges ranges) (maskCards b) (maskCards d) 0 = some e) :
    |(mean (outcomes (maskCards b) (maskCards d) ds) fun sd => equityIn sd 0) - e| ≤ e / 1365 := by
  have := C80_bias hwf hK h (by rw [h3]; decide) hne he
  rw [h3] at this
  exact_mod_cast this

end Pokers
