import Verif.Proofs.FloatChoice
import Verif.Props.Accuracy
import Verif.Props.ExactWeighted
import Verif.Proofs.KingsBoards
/-!
# How far the mean of the random simulation is off, runs that nobody cancels, and the crate's `test_approx_weighted` (C89)
-/
namespace Pokers
open Spec Kernel
open CombinedRange

section
variable {ranges : List (List Combo)} {b d nT : Nat} {r : Results} {sent : List Nat}

/-! ## The mean and the spread -/

theorem cast_weights (l : List (List WHand)) : (((l.map Spec.dealWeight).sum : Nat) : ℚ) = (l.map fun dd => (Spec.dealWeight dd : ℚ)).sum := by
  rw [Nat.cast_list_sum, List.map_map]
  rfl

theorem ceil_le (m : Nat) (h : 0 < m) : (4096 + m - 1) / m ≤ 4096 / m + 1 := by
  by_cases hz : 4096 % m = 0
  · rw [ceil_zero h hz]; omega
  · rw [ceil_pos h hz]

/-- C89: the mean over the outcomes differs from the exact equity at most by the mean distance of the equities of the deals from it, divided by
twice the number of times that each deal is evaluated in a batch. -/
theorem C89_bias (hwf : ∀ r ∈ ranges, WfRange r) {K : Nat} (hK : 0 < K) {ds : List (List WHand)} (h : Evaluates ranges b d K ds)
    (hm : (deals (specRanges ranges) (maskCards b ++ maskCards d)).length ≤ 4096)
    (hne : ∀ dd ∈ deals (specRanges ranges) (maskCards b ++ maskCards d), boards (maskCards b) (maskCards d) dd ≠ [])
    {e : ℚ} {p : Nat} (he : equityOf (specRanges ranges) (maskCards b) (maskCards d) p = some e) :
    let D := deals (specRanges ranges) (maskCards b ++ maskCards d)
    |(mean (outcomes (maskCards b) (maskCards d) ds) fun sd => equityIn sd p) - e| ≤
      (D.map fun dd => (Spec.dealWeight dd : ℚ) * |dealEquity (maskCards b) (maskCards d) p dd - e|).sum /
        (2 * ((4096 / D.length : Nat) : ℚ) * ((D.map Spec.dealWeight).sum : Nat)) := by
  intro D
  obtain ⟨hpos, e1⟩ := exact_mean hwf hne he
  have hDpos : 0 < D.length := by
    rw [List.length_pos_iff]
    intro e
    unfold D at e
    rw [e] at hpos
    exact absurd hpos (lt_irrefl _)
  have hq : 0 < 4096 / D.length := Nat.div_pos hm hDpos
  have hq' := ceil_le D.length hDpos
  rw [outcomes_mean fun dd hdd => hne dd (h.mem.2 dd hdd)]
  set E := dealEquity (maskCards b) (maskCards d) p with hE
  have hp0 : ∀ dd, 0 ≤ (Spec.dealWeight dd : ℚ) * max (E dd - e) 0 := fun dd => mul_nonneg (Nat.cast_nonneg _) (le_max_right _ _)
  have hm0 : ∀ dd, 0 ≤ (Spec.dealWeight dd : ℚ) * max (e - E dd) 0 := fun dd => mul_nonneg (Nat.cast_nonneg _) (le_max_right _ _)
  obtain ⟨a1, a2⟩ := h.sums hp0
  obtain ⟨b1, b2⟩ := h.sums hm0
  obtain ⟨c1, c2⟩ := h.sums (f := fun dd => (Spec.dealWeight dd : ℚ)) fun dd => Nat.cast_nonneg _
  have hdiff : ∀ l : List (List WHand), (l.map fun dd => (Spec.dealWeight dd : ℚ) * E dd).sum - e * (l.map fun dd => (Spec.dealWeight dd : ℚ)).sum =
      (l.map fun dd => (Spec.dealWeight dd : ℚ) * max (E dd - e) 0).sum - (l.map fun dd => (Spec.dealWeight dd : ℚ) * max (e - E dd) 0).sum := by
    intro l
    induction l with
    | nil => simp
    | cons x l ih =>
      simp only [List.map_cons, List.sum_cons]
      have : (Spec.dealWeight x : ℚ) * max (E x - e) 0 - (Spec.dealWeight x : ℚ) * max (e - E x) 0 = Spec.dealWeight x * E x - e * Spec.dealWeight x := by
        rcases le_total (E x) e with h | h
        · rw [max_eq_right (by linarith), max_eq_left (by linarith)]; ring
        · rw [max_eq_left (by linarith), max_eq_right (by linarith)]; ring
      linarith
  have habs : ∀ l : List (List WHand), (l.map fun dd => (Spec.dealWeight dd : ℚ) * |E dd - e|).sum =
      (l.map fun dd => (Spec.dealWeight dd : ℚ) * max (E dd - e) 0).sum + (l.map fun dd => (Spec.dealWeight dd : ℚ) * max (e - E dd) 0).sum := by
    intro l
    rw [← List.sum_map_add]
    congr 1
    apply List.map_congr_left
    intro x _
    rw [← mul_add]
    congr 1
    rcases le_total (E x) e with h | h
    · rw [max_eq_right (by linarith), max_eq_left (by linarith), abs_of_nonpos (by linarith)]; ring
    · rw [max_eq_left (by linarith), max_eq_right (by linarith), abs_of_nonneg (by linarith)]; ring
  have hW0 : (0 : ℚ) < (D.map fun dd => (Spec.dealWeight dd : ℚ)).sum := by
    rw [← cast_weights]
    exact_mod_cast hpos
  have hzero := hdiff D
  have hds := hdiff ds
  rw [cast_weights, eq_div_iff hW0.ne'] at e1
  rw [show (D.map fun dd => (Spec.dealWeight dd : ℚ) * E dd).sum - e * (D.map fun dd => (Spec.dealWeight dd : ℚ)).sum = 0 by
    unfold D; linarith] at hzero
  rw [habs D, cast_weights, cast_weights]
  set Gp := (D.map fun dd => (Spec.dealWeight dd : ℚ) * max (E dd - e) 0).sum
  set Gm := (D.map fun dd => (Spec.dealWeight dd : ℚ) * max (e - E dd) 0).sum
  set W := (D.map fun dd => (Spec.dealWeight dd : ℚ)).sum
  have hG : Gp = Gm := by linarith
  have hGp : 0 ≤ Gp := List.sum_nonneg (by simpa using fun dd _ => hp0 dd)
  have hqQ : (0 : ℚ) < ((4096 / D.length : Nat) : ℚ) := by exact_mod_cast hq
  have hqQ' : (((4096 + D.length - 1) / D.length : Nat) : ℚ) ≤ ((4096 / D.length : Nat) : ℚ) + 1 := by exact_mod_cast hq'
  set q : ℚ := ((4096 / D.length : Nat) : ℚ)
  set q' : ℚ := (((4096 + D.length - 1) / D.length : Nat) : ℚ)
  have hKQ : (0 : ℚ) < K := by exact_mod_cast hK
  have hV0 : 0 < (ds.map fun dd => (Spec.dealWeight dd : ℚ)).sum := lt_of_lt_of_le (by positivity) c1
  set V := (ds.map fun dd => (Spec.dealWeight dd : ℚ)).sum
  have hnum : |(ds.map fun dd => (Spec.dealWeight dd : ℚ) * E dd).sum - e * V| ≤ K * Gp := by
    rw [hds]
    have hx : (K : ℚ) * (q' * Gp) ≤ K * ((q + 1) * Gp) := mul_le_mul_of_nonneg_left (mul_le_mul_of_nonneg_right hqQ' hGp) hKQ.le
    rw [← hG] at b1 b2
    have hx2 : (K : ℚ) * ((q + 1) * Gp) = K * (q * Gp) + K * Gp := by ring
    rw [abs_le]
    constructor <;> linarith
  have : (ds.map fun dd => (Spec.dealWeight dd : ℚ) * E dd).sum / V - e = ((ds.map fun dd => (Spec.dealWeight dd : ℚ) * E dd).sum - e * V) / V := by
    field_simp
  rw [this, abs_div, abs_of_pos hV0, ← hG, div_le_div_iff₀ hV0 (by positivity)]
  calc |(ds.map fun dd => (Spec.dealWeight dd : ℚ) * E dd).sum - e * V| * (2 * q * W) ≤ K * Gp * (2 * q * W) :=
        mul_le_mul_of_nonneg_right hnum (by positivity)
    _ = (Gp + Gp) * (K * (q * W)) := by ring
    _ ≤ (Gp + Gp) * V := mul_le_mul_of_nonneg_left c1 (by positivity)

/-- C89: the variance over the outcomes, from the equities of the deals. -/
theorem C89_variance {K : Nat} (hK : 0 < K) {ds : List (List WHand)} (h : Evaluates ranges b d K ds)
    (hm : (deals (specRanges ranges) (maskCards b ++ maskCards d)).length ≤ 4096)
    (hne : ∀ dd ∈ deals (specRanges ranges) (maskCards b ++ maskCards d), boards (maskCards b) (maskCards d) dd ≠ [])
    (h0 : 0 < ((deals (specRanges ranges) (maskCards b ++ maskCards d)).map Spec.dealWeight).sum) (p : Nat) :
    let D := deals (specRanges ranges) (maskCards b ++ maskCards d)
    (variance (outcomes (maskCards b) (maskCards d) ds) fun sd => equityIn sd p) ≤
      (((4096 + D.length - 1) / D.length : Nat) : ℚ) * (D.map fun dd => (Spec.dealWeight dd : ℚ) ^ 2 *
        (dealEquity (maskCards b) (maskCards d) p dd * (1 - dealEquity (maskCards b) (maskCards d) p dd))).sum /
        (K * (((4096 / D.length : Nat) : ℚ) * ((D.map Spec.dealWeight).sum : Nat)) ^ 2) := by
  intro D
  have hDpos : 0 < D.length := by
    rw [List.length_pos_iff]
    intro e
    unfold D at e
    rw [e] at h0
    exact absurd h0 (lt_irrefl _)
  have hq : 0 < 4096 / D.length := Nat.div_pos hm hDpos
  rw [outcomes_variance fun dd hdd => hne dd (h.mem.2 dd hdd), cast_weights, cast_weights]
  obtain ⟨c1, c2⟩ := h.sums (f := fun dd => (Spec.dealWeight dd : ℚ)) fun dd => Nat.cast_nonneg _
  have hrange : ∀ dd ∈ D, 0 ≤ dealVariance (maskCards b) (maskCards d) p dd ∧ dealVariance (maskCards b) (maskCards d) p dd ≤
      dealEquity (maskCards b) (maskCards d) p dd * (1 - dealEquity (maskCards b) (maskCards d) p dd) := fun dd hdd =>
    ⟨variance_nonneg _ _, variance_le (hne dd hdd) fun B _ => potShare_range p (dd, B)⟩
  obtain ⟨a1, a2⟩ := h.sums (f := fun dd => (Spec.dealWeight dd : ℚ) ^ 2 * dealVariance (maskCards b) (maskCards d) p dd)
    fun dd => mul_nonneg (sq_nonneg _) (variance_nonneg _ _)
  have a3 : (D.map fun dd => (Spec.dealWeight dd : ℚ) ^ 2 * dealVariance (maskCards b) (maskCards d) p dd).sum ≤
      (D.map fun dd => (Spec.dealWeight dd : ℚ) ^ 2 *
        (dealEquity (maskCards b) (maskCards d) p dd * (1 - dealEquity (maskCards b) (maskCards d) p dd))).sum :=
    List.sum_le_sum fun dd hdd => mul_le_mul_of_nonneg_left (hrange dd hdd).2 (sq_nonneg _)
  have hW0 : (0 : ℚ) < (D.map fun dd => (Spec.dealWeight dd : ℚ)).sum := by
    rw [← cast_weights]
    exact_mod_cast h0
  have hqQ : (0 : ℚ) < ((4096 / D.length : Nat) : ℚ) := by exact_mod_cast hq
  have hKQ : (0 : ℚ) < K := by exact_mod_cast hK
  have hA : 0 ≤ (D.map fun dd => (Spec.dealWeight dd : ℚ) ^ 2 * dealVariance (maskCards b) (maskCards d) p dd).sum :=
    List.sum_nonneg (by simpa using fun dd hdd => mul_nonneg (sq_nonneg _) (hrange dd hdd).1)
  have hq'Q : (0 : ℚ) ≤ (((4096 + D.length - 1) / D.length : Nat) : ℚ) := Nat.cast_nonneg _
  refine (div_le_div₀ (c := K * ((((4096 + D.length - 1) / D.length : Nat) : ℚ) * (D.map fun dd => (Spec.dealWeight dd : ℚ) ^ 2 *
        (dealEquity (maskCards b) (maskCards d) p dd * (1 - dealEquity (maskCards b) (maskCards d) p dd))).sum)) (by
      refine mul_nonneg hKQ.le (mul_nonneg hq'Q (hA.trans a3)))
    (a2.trans (mul_le_mul_of_nonneg_left (mul_le_mul_of_nonneg_left a3 hq'Q) hKQ.le)) (pow_pos (mul_pos hKQ (mul_pos hqQ hW0)) 2)
    (pow_le_pow_left₀ (mul_pos hKQ (mul_pos hqQ hW0)).le c1 2)).trans (le_of_eq ?_)
  show _ / (K * (((4096 / D.length : Nat) : ℚ) * (D.map fun dd => (Spec.dealWeight dd : ℚ)).sum)) ^ 2 = _
  have := hW0.ne'
  have := hqQ.ne'
  have := hKQ.ne'
  field_simp

/-- C89: with a single combined range and a target of at least `1 / 31622`, any boards can come up in a run that nobody cancels, with
floating-point numbers: for every choice of a board for each thread, each of its 4096 evaluations and each deal there is such a run that
evaluates the boards chosen. -/
theorem C89_boards (prog : Option ℚ → Nat) (hwf : ∀ r ∈ ranges, WfRange r) (hb : CardMask b) (hd : CardMask d)
    (hv : validate ranges.length b d = none) (hne : deals (specRanges ranges) (maskCards b ++ maskCards d) ≠ [])
    (h1 : (fromRanges (ranges.map fun h => removeConflictingCombos h b d)).length = 1) (h8 : ranges.length ≤ 8) (hw : WholeShares ranges b d)
    {T : ℚ} (htg : 1 / 31622 ≤ T) (nT : Nat) (f : Nat → Nat → List WHand → List Nat)
    (hf : ∀ t i, ∀ dd ∈ deals (specRanges ranges) (maskCards b ++ maskCards d), f t i dd ∈ Spec.boards (maskCards b) (maskCards d) dd) :
    ∃ r sent, ∃ ds : Nat → List (List WHand), ApproxAloneF devF prog ranges b d nT T r sent ∧ sent.length = 2 * nT ∧
      (∀ t < nT, (ds t).length = 4096 ∧ ∀ dd ∈ ds t, dd ∈ deals (specRanges ranges) (maskCards b ++ maskCards d)) ∧
      let sd := (List.range nT).flatMap fun t => (ds t).mapIdx fun i dd => (dd, f t i dd)
      (∀ p < ranges.length, r.wins p = winsOf sd [p]) ∧
      ∀ p < ranges.length, 0 < totalWeight sd → totalWeight sd ≤ 2 ^ 53 → r.equities[p]? = some (some (fl (equityIn sd p))) := by
  obtain ⟨s0, hs0⟩ := prepare_of_deal hwf hb hd hv hne
  obtain ⟨s, hp⟩ := C39_approx_ok hs0
  obtain ⟨r, r', sent, flag, r0, hist, ds, g1, g2, g3, g4, g5⟩ := exists_choiceF prog hwf hb hd h1 hp hne htg nT f hf
  have hro := g5.rounded g4.calc
  refine ⟨r', sent, ds, g1, g2, g3, ?_⟩
  intro sd
  refine ⟨fun p hp => (congrFun hro.wins p).trans (g4.reports.wins h8 p hp), fun p hp h0 h53 => ?_⟩
  have hsum : ∑ i ∈ Finset.range (2 ^ ranges.length), r.winsByMask i = totalWeight sd :=
    g4.counts.1.maskSum (fun x hx => (deals_wf hwf (g4.legal x hx).1).1) (by omega)
  rw [hro.once (by rw [hsum]; exact h53), List.getElem?_map, (g4.calc.exact_shares h8 hw).2 p hp, ← winning_sum]
  unfold fdiv equityIn
  rw [if_neg (by exact_mod_cast h0.ne')]
  rfl

/-! ## The deals of the test -/

/-- The equity of the kings in a deal. -/
def weightedDealEquity (dd : List WHand) : ℚ :=
  ((if (dd.getD 1 (0, 0, 0)).2.2 = 1 then acesPoints (dd.getD 0 (0, 0, 0)) (dd.getD 1 (0, 0, 0))
    else queensPoints (dd.getD 0 (0, 0, 0)) (dd.getD 1 (0, 0, 0)) : Nat) : ℚ) / 3424608

theorem dealEquity_known {h v : WHand} {e : ℚ} (hc : IsCards (dealt [h, v])) (he : equityOf [[h], [v]] [] [] 0 = some e) :
    dealEquity [] [] 0 [h, v] = e := by
  have hn : (dealt [h, v]).Nodup := hc.1
  have h52 := hc.2
  simp only [dealt, cardsOf, List.flatMap_cons, List.flatMap_nil, List.append_nil, List.cons_append, List.nil_append, List.nodup_cons, List.mem_cons,
    List.not_mem_nil, or_false, not_or] at hn h52
  have hL : Spec.Legal [] [h, v] := ⟨hc.1, by simp⟩
  have hD : deals [[h], [v]] ([] ++ []) = [[h, v]] := by
    unfold deals
    simp only [choices, List.flatMap_cons, List.flatMap_nil, List.map_cons, List.map_nil, List.append_nil]
    rw [List.filter_cons_of_pos (by simpa using hL)]
    rfl
  have hm : maskCards 0 = [] := by decide
  have key := exact_mean (ranges := [[⟨h.1, h.2.1, h.2.2⟩], [⟨v.1, v.2.1, v.2.2⟩]]) (b := 0) (d := 0) (p := 0) (e := e)
  rw [hm, show specRanges [[⟨h.1, h.2.1, h.2.2⟩], [⟨v.1, v.2.1, v.2.2⟩]] = [[h], [v]] from rfl, hD] at key
  obtain ⟨k1, k2⟩ := key (by
      intro r hr
      simp only [List.mem_cons, List.not_mem_nil, or_false] at hr
      rcases hr with rfl | rfl
      · intro c hc
        rw [List.mem_singleton.1 hc]
        exact ⟨h52 _ (by simp), h52 _ (by simp), hn.1.1⟩
      · intro c hc
        rw [List.mem_singleton.1 hc]
        exact ⟨h52 _ (by simp), h52 _ (by simp), hn.2.2.1⟩) (by
      intro dd hdd hnil
      rw [List.mem_singleton.1 hdd] at hnil
      have := preflop_boards hc
      rw [hnil] at this
      cases this) he
  simp only [List.map_cons, List.map_nil, List.sum_cons, List.sum_nil, add_zero] at k1 k2
  rw [k2, mul_div_cancel_left₀ _ (by exact_mod_cast k1.ne')]

/-- What is known about the 72 deals. -/
structure KnownDeal (dd : List WHand) : Prop where
  boards : Spec.boards [] [] dd ≠ []
  equity : dealEquity [] [] 0 dd = weightedDealEquity dd
  light : 100 ≤ Spec.dealWeight dd
  heavy : Spec.dealWeight dd ≤ 10000
  kings : kingsBoard dd ∈ Spec.boards [] [] dd
  wins : winners (kingsBoard dd) dd = [0]

theorem weighted_check : ∀ h ∈ pairsOf 11 100, ∀ v ∈ pairsOf 12 1 ++ pairsOf 10 100,
    (dealt [h, v]).Nodup ∧ (∀ c ∈ dealt [h, v], c < 52) ∧ 100 ≤ Spec.dealWeight [h, v] ∧ Spec.dealWeight [h, v] ≤ 10000 ∧
    (kingsBoard [h, v]).Sublist ((List.range 52).filter fun c => decide (c ∉ [] ++ [] ++ dealt [h, v])) ∧ (kingsBoard [h, v]).length = 5 := by
  decide +kernel

theorem knownDeal {dd : List WHand} (hdd : dd ∈ deals weightedRanges ([] ++ [])) : KnownDeal dd := by
  obtain ⟨hc, hL⟩ := List.mem_filter.1 hdd
  unfold weightedRanges at hc
  simp only [choices, List.mem_flatMap, List.mem_map, List.mem_singleton] at hc
  obtain ⟨h, hh, _, ⟨v, hv, _, rfl, rfl⟩, rfl⟩ := hc
  obtain ⟨c1, c2, c3, c4, c5, c6⟩ := weighted_check h hh v hv
  have hcards : IsCards (dealt [h, v]) := ⟨c1, c2⟩
  refine ⟨fun hnil => ?_, ?_, c3, c4, ?_, kings_win hh hv⟩
  · have := preflop_boards hcards
    rw [hnil] at this
    cases this
  · apply dealEquity_known hcards
    unfold weightedDealEquity
    show _ = some (((if v.2.2 = 1 then acesPoints h v else queensPoints h v : Nat) : ℚ) / 3424608)
    rcases List.mem_append.1 hv with hv | hv
    · have : ∀ v ∈ pairsOf 12 1, v.2.2 = 1 := by decide
      rw [if_pos (this v hv)]
      exact C88_kings_aces hh hv
    · have : ∀ v ∈ pairsOf 10 100, v.2.2 ≠ 1 := by decide
      rw [if_neg (this v hv)]
      exact C88_kings_queens hh hv
  · unfold Spec.boards completions
    rw [List.mem_map]
    exact ⟨_, List.mem_sublistsLen.2 ⟨c5, c6⟩, rfl⟩

theorem weighted_length : (deals weightedRanges ([] ++ [])).length = 72 := by decide +kernel

theorem weighted_weights : ((deals weightedRanges ([] ++ [])).map Spec.dealWeight).sum = 363600 := by decide +kernel

theorem weighted_distance : ((deals weightedRanges ([] ++ [])).map fun dd =>
    (Spec.dealWeight dd : ℚ) * |weightedDealEquity dd - 10123663572 / 12451874688|).sum ≤ 5000 := by decide +kernel

theorem weighted_spread : ((deals weightedRanges ([] ++ [])).map fun dd =>
    (Spec.dealWeight dd : ℚ) ^ 2 * (weightedDealEquity dd * (1 - weightedDealEquity dd))).sum ≤ 540000000 := by decide +kernel

/-! ## The test -/

/-- The two assertions of the test: src/equity_calculator/simulator.rs:1400-1401 -/
def TestPasses (x : ℚ) : Prop := fl (fl 0.8130232455484216 - fl 0.01) < x ∧ x < fl (fl 0.8130232455484216 + fl 0.01)

instance (x : ℚ) : Decidable (TestPasses x) := inferInstanceAs (Decidable (_ ∧ _))

/-- A result that is closer to the equity than 0.00999 passes. -/
theorem near_passes {x : ℚ} (h : |x - 10123663572 / 12451874688| < 0.00999) : TestPasses (fl x) := by
  rw [abs_lt] at h
  have l1 : fl (fl 0.8130232455484216 - fl 0.01) < fl (10123663572 / 12451874688 - 0.00999) := by decide +kernel
  have l2 : fl (10123663572 / 12451874688 + 0.00999) < fl (fl 0.8130232455484216 + fl 0.01) := by decide +kernel
  have h0 : (0 : ℚ) ≤ 10123663572 / 12451874688 - 0.00999 := by norm_num
  exact ⟨l1.trans_le (fl_mono h0 (by linarith [h.1])), (fl_mono (by linarith [h.1]) (by linarith [h.2])).trans_lt l2⟩

theorem weight_bounds {sd : List (List WHand × List Nat)} (h : ∀ x ∈ sd, 100 ≤ Spec.dealWeight x.1 ∧ Spec.dealWeight x.1 ≤ 10000) :
    100 * sd.length ≤ totalWeight sd ∧ totalWeight sd ≤ 10000 * sd.length := by
  unfold totalWeight
  induction sd with
  | nil => simp
  | cons x sd ih =>
    obtain ⟨a, b⟩ := h x (by simp)
    obtain ⟨c, d⟩ := ih fun y hy => h y (by simp [hy])
    rw [List.map_cons, List.sum_cons, List.length_cons]
    omega

/-- The texts of the test are read, and what is needed of the ranges. -/
theorem weighted_ranges : ∃ ranges, fromStrings asciiLower ["KK".toList, "AA@1,QQ".toList] = .ok ranges ∧ (∀ r ∈ ranges, WfRange r) ∧
    ranges.length = 2 ∧ (deals (specRanges ranges) (maskCards 0 ++ maskCards 0)).Perm (deals weightedRanges ([] ++ [])) ∧
    equityOf (specRanges ranges) (maskCards 0) (maskCards 0) 0 = some (10123663572 / 12451874688) ∧ WholeShares ranges 0 0 ∧
    (fromRanges (ranges.map fun h => removeConflictingCombos h 0 0)).length = 1 := by
  have hm : maskCards 0 = [] := by decide
  have hz : getCardMask asciiLower "".toList = 0 := by decide
  have he := C88_equity rfl
  have hs : weightedRanges.length = 2 := by decide
  have s0 : (weightedRanges.getD 0 []).length = 6 := by decide
  have s1 : (weightedRanges.getD 1 []).length = 12 := by decide
  have heven : ∀ x ∈ weightedRanges.getD 0 [], 2 ∣ x.2.2 := by decide +kernel
  obtain ⟨ranges, hq⟩ := weighted_problem.parsed
  generalize weightedRanges = Rs at *
  have hperm := hq.perm
  have hlen : ranges.length = 2 := by
    have h1 := hperm.length_eq
    simp only [List.length_map, specRanges] at h1
    omega
  have hpair : ∀ i (h : i < ranges.length), (ranges[i].map toHole).Perm (Rs.getD i []) := by
    intro i h
    have h3 := (List.forall₂_iff_get.1 hperm).2 i (by simpa [specRanges] using h) (by omega)
    rw [List.getD_eq_getElem _ _ (by omega)]
    simpa [specRanges] using h3
  have e1 := hq.winsOf
  have e2 := hq.sharesOf
  have e3 := hq.totalWeight
  rw [hz, hm] at e1 e2 e3
  rw [hm]
  refine ⟨ranges, hq.ok, hq.wf, hlen, (choices_perm hperm).filter _, ?_, ?_, ?_⟩
  · rw [equityOf_eq, e1, e2, e3, ← equityOf_eq]
    exact he
  · apply C61_two_players hq.wf hlen (p := 0) (by omega)
    intro c hc
    refine heven (c.c1, c.c2, c.w) (((hpair 0 (by omega)).mem_iff).1 ?_)
    exact List.mem_map.2 ⟨c, hc, rfl⟩
  · apply C66_single
    · intro h
      rw [List.map_eq_nil_iff] at h
      rw [h] at hlen
      cases hlen
    · have h0 := (hpair 0 (by omega)).length_eq
      have h1 := (hpair 1 (by omega)).length_eq
      rw [s0, List.length_map] at h0
      rw [s1, List.length_map] at h1
      match ranges, hlen, h0, h1 with
      | [r0, r1], _, h0, h1 =>
          simp only [List.getElem_cons_zero, List.getElem_cons_succ] at h0 h1
          simp only [List.map_cons, List.map_nil, List.prod_cons, List.prod_nil, mul_one]
          have a0 : (removeConflictingCombos r0 0 0).length ≤ r0.length := List.length_filter_le _ _
          have a1 : (removeConflictingCombos r1 0 0).length ≤ r1.length := List.length_filter_le _ _
          calc _ ≤ 6 * 12 := Nat.mul_le_mul (by omega) (by omega)
            _ < 10000 := by decide

/-- What is true of all outcomes of the deals evaluated in a run of the test. -/
theorem weighted_bound {ranges : List (List Combo)} (hwf : ∀ r ∈ ranges, WfRange r)
    (hD : (deals (specRanges ranges) (maskCards 0 ++ maskCards 0)).Perm (deals weightedRanges ([] ++ [])))
    (he : equityOf (specRanges ranges) (maskCards 0) (maskCards 0) 0 = some (10123663572 / 12451874688)) {ds : List (List WHand)}
    (hev : Evaluates ranges 0 0 4 ds) :
    (∀ sd ∈ outcomes [] [] ds, 0 < totalWeight sd ∧ totalWeight sd ≤ 2 ^ 53) ∧
    |(mean (outcomes [] [] ds) fun sd => equityIn sd 0) - 10123663572 / 12451874688| ≤ 1 / 8000 ∧
    5 * ((outcomes [] [] ds).countP fun sd => decide (¬ TestPasses (fl (equityIn sd 0)))) ≤ (outcomes [] [] ds).length := by
  have hm : maskCards 0 = [] := by decide
  have hmem : ∀ dd ∈ deals (specRanges ranges) (maskCards 0 ++ maskCards 0), KnownDeal dd := fun dd hdd => knownDeal (hD.mem_iff.1 hdd)
  have hne : ∀ dd ∈ deals (specRanges ranges) (maskCards 0 ++ maskCards 0), Spec.boards (maskCards 0) (maskCards 0) dd ≠ [] := fun dd hdd => by
    rw [hm]; exact (hmem dd hdd).boards
  have hl : (deals (specRanges ranges) (maskCards 0 ++ maskCards 0)).length = 72 := hD.length_eq.trans weighted_length
  have hW : ((deals (specRanges ranges) (maskCards 0 ++ maskCards 0)).map Spec.dealWeight).sum = 363600 :=
    ((hD.map _).sum_eq).trans weighted_weights
  have hbias := C89_bias hwf (by decide) hev (by omega) hne he
  have hvar := C89_variance (by decide) hev (by omega) hne (by rw [hW]; decide) 0
  simp only at hbias hvar
  have hS1 : ((deals (specRanges ranges) (maskCards 0 ++ maskCards 0)).map fun dd =>
      (Spec.dealWeight dd : ℚ) * |dealEquity (maskCards 0) (maskCards 0) 0 dd - 10123663572 / 12451874688|).sum ≤ 5000 := by
    rw [(hD.map _).sum_eq]
    refine le_trans (le_of_eq ?_) weighted_distance
    congr 1
    apply List.map_congr_left
    intro dd hdd
    rw [hm, (knownDeal hdd).equity]
  have hS2 : ((deals (specRanges ranges) (maskCards 0 ++ maskCards 0)).map fun dd =>
      (Spec.dealWeight dd : ℚ) ^ 2 * (dealEquity (maskCards 0) (maskCards 0) 0 dd * (1 - dealEquity (maskCards 0) (maskCards 0) 0 dd))).sum ≤
      540000000 := by
    rw [(hD.map _).sum_eq]
    refine le_trans (le_of_eq ?_) weighted_spread
    congr 1
    apply List.map_congr_left
    intro dd hdd
    rw [hm, (knownDeal hdd).equity]
  rw [hl, hW] at hbias hvar
  have hbias := hbias.trans (div_le_div_of_nonneg_right hS1 (by positivity))
  have hvar := hvar.trans (div_le_div_of_nonneg_right (mul_le_mul_of_nonneg_left hS2 (by positivity)) (by positivity))
  rw [hm] at hbias hvar
  refine ⟨fun sd hsd => ?_, hbias.trans (by norm_num), ?_⟩
  · have hf := (mem_outcomes.1 hsd).1
    obtain ⟨w1, w2⟩ := weight_bounds (sd := sd) fun x hx => by
      have := hmem x.1 (hev.mem.2 _ (by rw [← hf]; exact List.mem_map_of_mem hx))
      exact ⟨this.light, this.heavy⟩
    have hlen : sd.length = 4096 * 4 := by rw [← hev.mem.1, ← hf, List.length_map]
    exact ⟨by omega, by omega⟩
  · have hch := chebyshev (outcomes [] [] ds) (fun sd => equityIn sd 0) (ε := 0.00986) (by norm_num)
    have hcount : (outcomes [] [] ds).countP (fun sd => decide (¬ TestPasses (fl (equityIn sd 0)))) ≤
        (outcomes [] [] ds).countP fun sd => decide (0.00986 ≤ |equityIn sd 0 - mean (outcomes [] [] ds) fun sd => equityIn sd 0|) := by
      apply List.countP_mono_left
      intro sd _ hx
      rw [decide_eq_true_iff] at hx ⊢
      by_contra hlt
      apply hx
      apply near_passes
      have h3 := abs_sub_le (equityIn sd 0) (mean (outcomes [] [] ds) fun sd => equityIn sd 0) (10123663572 / 12451874688)
      norm_num at hbias hlt ⊢
      linarith
    generalize (outcomes [] [] ds).countP (fun sd => decide (¬ TestPasses (fl (equityIn sd 0)))) = C1 at hcount ⊢
    generalize (outcomes [] [] ds).countP (fun sd => decide (0.00986 ≤ |equityIn sd 0 - mean (outcomes [] [] ds) fun sd => equityIn sd 0|)) = C2
      at hcount hch
    have hcQ : (C1 : ℚ) ≤ C2 := by exact_mod_cast hcount
    have hn : (0 : ℚ) ≤ (outcomes [] [] ds).length := Nat.cast_nonneg _
    have h4 := mul_le_mul_of_nonneg_left hvar hn
    have h5 : (5 : ℚ) * C1 ≤ ((outcomes [] [] ds).length : Nat) := by
      norm_num at h4 hch
      linarith
    exact_mod_cast h5

/-- C89: every result of the test is that of one of the possible outcomes, rounded once.  The mean over these is the exact
equity up to one part in 8000, and at most one of five does not pass. -/
theorem C89_approx_weighted : ∃ ranges, fromStrings asciiLower ["KK".toList, "AA@1,QQ".toList] = .ok ranges ∧
    ∀ prog cancelled r sent, ApproxEquityF devF prog ranges 0 0 4 (fl 0.001) cancelled (.ok r) sent →
      ∃ ds, Evaluates ranges 0 0 4 ds ∧
        (∃ sd ∈ outcomes [] [] ds, r.equities[0]? = some (some (fl (equityIn sd 0)))) ∧
        |(mean (outcomes [] [] ds) fun sd => equityIn sd 0) - 10123663572 / 12451874688| ≤ 1 / 8000 ∧
        5 * ((outcomes [] [] ds).countP fun sd => decide (¬ TestPasses (fl (equityIn sd 0)))) ≤ (outcomes [] [] ds).length := by
  obtain ⟨ranges, hok, hwf, h2, hD, he, hw, h1⟩ := weighted_ranges
  refine ⟨ranges, hok, fun prog cancelled r sent h => ?_⟩
  clear hok
  have hm : maskCards 0 = [] := by decide
  have hc : CardMask 0 := by unfold CardMask; decide
  obtain ⟨ds, hev, sd, hsd, hres⟩ := C80_float hwf hc hc h1 (by omega) hw (show 1 / 31622 ≤ fl 0.001 by decide +kernel) h
  have hb := weighted_bound hwf hD he hev
  rw [hm] at hsd
  obtain ⟨w1, w2⟩ := hb.1 sd hsd
  exact ⟨ds, hev, ⟨sd, hsd, hres 0 (by omega) w1 w2⟩, hb.2⟩

/-- C89 (finding): the test can fail.  There is a run that nobody cancels in which the two kings win every one of the 16384 showdowns; it
reports an equity of one. -/
theorem C89_can_fail (prog : Option ℚ → Nat) : ∃ ranges r sent, fromStrings asciiLower ["KK".toList, "AA@1,QQ".toList] = .ok ranges ∧
    ApproxAloneF devF prog ranges 0 0 4 (fl 0.001) r sent ∧ r.equities[0]? = some (some 1) ∧ ¬ TestPasses 1 := by
  obtain ⟨ranges, hok, hwf, h2, hD, he, hw, h1⟩ := weighted_ranges
  have hm : maskCards 0 = [] := by decide
  have hc : CardMask 0 := by unfold CardMask; decide
  have hmem : ∀ dd ∈ deals (specRanges ranges) (maskCards 0 ++ maskCards 0), KnownDeal dd := fun dd hdd => knownDeal (hD.mem_iff.1 hdd)
  have hl : (deals (specRanges ranges) (maskCards 0 ++ maskCards 0)).length = 72 := hD.length_eq.trans weighted_length
  obtain ⟨r, sent, ds, g1, _, g3, _, g5⟩ := C89_boards prog hwf hc hc (by rw [h2]; decide)
    (fun e => by rw [e] at hl; cases hl) h1 (by omega) hw (show 1 / 31622 ≤ fl 0.001 by decide +kernel) 4 (fun _ _ dd => kingsBoard dd)
    (fun _ _ dd hdd => by rw [hm]; exact (hmem dd hdd).kings)
  refine ⟨ranges, r, sent, hok, g1, ?_, by decide +kernel⟩
  clear hok
  set sd := (List.range 4).flatMap fun t => (ds t).mapIdx fun i dd => (dd, kingsBoard dd) with hsd
  have hx : ∀ x ∈ sd, KnownDeal x.1 ∧ x.2 = kingsBoard x.1 := by
    intro x hx
    obtain ⟨t, ht, hx⟩ := List.mem_flatMap.1 hx
    obtain ⟨i, hi, rfl⟩ := List.mem_mapIdx.1 hx
    exact ⟨hmem _ ((g3 t (List.mem_range.1 ht)).2 _ (List.getElem_mem hi)), rfl⟩
  have hlen : sd.length = 16384 := by
    rw [hsd, List.length_flatMap]
    have : (List.range 4).map (fun t => ((ds t).mapIdx fun i dd => (dd, kingsBoard dd)).length) = (List.range 4).map fun _ => 4096 :=
      List.map_congr_left fun t ht => by rw [List.length_mapIdx, (g3 t (List.mem_range.1 ht)).1]
    rw [this]
    rfl
  obtain ⟨w1, w2⟩ := weight_bounds fun x hm => ⟨(hx x hm).1.light, (hx x hm).1.heavy⟩
  rw [g5 0 (by omega) (by omega) (by omega)]
  have hone : equityIn sd 0 = 1 := by
    unfold equityIn
    rw [show sd.map (winning 0) = sd.map fun x => (Spec.dealWeight x.1 : ℚ) from List.map_congr_left fun x hm => by
      rw [winning_eq]
      unfold potShare
      rw [(hx x hm).2, (hx x hm).1.wins]
      simp]
    have e : (sd.map fun x => (Spec.dealWeight x.1 : ℚ)).sum = totalWeight sd := by
      unfold totalWeight
      rw [Nat.cast_list_sum, List.map_map]
      rfl
    rw [e, div_self]
    have : 0 < totalWeight sd := by omega
    exact_mod_cast this.ne'
  rw [hone]
  have : fl 1 = 1 := by decide +kernel
  rw [this]

/-! ## Examples -/

/-- The runs that `C89_approx_weighted` speaks of exist, and most of their outcomes pass. -/
example : ∃ ranges r sent ds, ApproxEquityF devF (progF (fl 0.001)) ranges 0 0 4 (fl 0.001) false (.ok r) sent ∧ Evaluates ranges 0 0 4 ds ∧
    5 * ((outcomes [] [] ds).countP fun sd => decide (¬ TestPasses (fl (equityIn sd 0)))) ≤ (outcomes [] [] ds).length := by
  obtain ⟨ranges, r, sent, h1, h2, _⟩ := C89_can_fail (progF (fl 0.001))
  obtain ⟨ranges', h3, h4⟩ := C89_approx_weighted
  rw [h1] at h3
  obtain rfl := Except.ok.inj h3
  obtain ⟨ds, h5, _, _, h6⟩ := h4 _ _ _ _ h2.run
  exact ⟨ranges, r, sent, ds, h2.run, h5, h6⟩

/-- The literal itself passes, and so does a result that is off by 0.0099; one that is off by 0.0101 does not. -/
example : TestPasses (fl 0.8130232455484216) ∧ TestPasses (fl 0.8229) ∧ ¬ TestPasses (fl 0.82313) ∧ ¬ TestPasses (fl 0.8029) := by decide +kernel

end
end Pokers
