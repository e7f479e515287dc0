import Mathlib.Analysis.Complex.ExponentialBounds
import Verif.Proofs.Tail
import Verif.Props.ChanceStop
/-!
C94: large errors of the random simulation are exponentially unlikely, if all ranges were joined.
-/
namespace Pokers

open Spec CombinedRange
open scoped ENNReal

variable {prog : Option ℚ → Nat} {T : ℚ} {ranges : List (List Combo)} {b d nT : Nat} {s : Sim} {r0 : Results} {flag : Nat} {σ : List McWorld → Bool × Nat}
variable {cancelled : Bool}

theorem average_within_real {α : Type} {l : List α} (h0 : l ≠ []) {P : α → Prop} [DecidablePred P] {x : ℝ}
    (h : (l.countP (fun x => decide (¬ P x)) : ℝ) ≤ l.length * x) : ENNReal.ofReal (1 - x) ≤ average l fun x => if P x then 1 else 0 := by
  have hl : 0 < l.length := List.length_pos_iff.2 h0
  have hle : l.length = l.countP (fun x => decide (P x)) + l.countP (fun x => decide (¬ P x)) := by
    have h2 := List.length_eq_countP_add_countP (fun x => decide (P x)) (l := l)
    rw [h2]
    congr 2
    funext a
    simp
  have hq : (l.length : ℝ) * (1 - x) ≤ l.countP fun x => decide (P x) := by
    have : (l.length : ℝ) = l.countP (fun x => decide (P x)) + l.countP (fun x => decide (¬ P x)) := by exact_mod_cast hle
    linarith
  rw [average_indicator, ENNReal.le_div_iff_mul_le (Or.inl (by exact_mod_cast hl.ne')) (Or.inl (ENNReal.natCast_ne_top _)), ← ENNReal.ofReal_natCast,
    ← ENNReal.ofReal_natCast, ← ENNReal.ofReal_mul' (Nat.cast_nonneg _)]
  refine ENNReal.ofReal_le_ofReal ?_
  linarith

/-- C94: if the deals of the batches are given, the equity is off its mean by `ε` or more in a part of at most `2 exp (-8192 K ε² wmin / wmax)` of the
possible results. -/
theorem C94_outcomes {K : Nat} {ds : List (List WHand)} (h : Evaluates ranges b d K ds)
    (hne : ∀ dd ∈ deals (specRanges ranges) (maskCards b ++ maskCards d), boards (maskCards b) (maskCards d) dd ≠ []) (hK : 0 < K) {wmin wmax : Nat} (hw0 : 0 < wmin)
    (hw : ∀ dd ∈ deals (specRanges ranges) (maskCards b ++ maskCards d), wmin ≤ Spec.dealWeight dd ∧ Spec.dealWeight dd ≤ wmax) (p : Nat) {ε : ℚ} (hε : 0 < ε) :
    let Ω := outcomes (maskCards b) (maskCards d) ds
    ((Ω.countP fun sd => decide (ε ≤ |equityIn sd p - mean Ω fun sd => equityIn sd p|) : Nat) : ℝ) ≤
      Ω.length * (2 * Real.exp (-(8192 * K * ε ^ 2 * wmin / wmax))) := by
  intro Ω
  obtain ⟨hl, hmem⟩ := h.mem
  have hsum : ∀ l : List (List WHand), (∀ dd ∈ l, wmin ≤ Spec.dealWeight dd ∧ Spec.dealWeight dd ≤ wmax) →
      l.length * wmin ≤ (l.map Spec.dealWeight).sum ∧ (l.map fun dd => Spec.dealWeight dd ^ 2).sum ≤ wmax * (l.map Spec.dealWeight).sum := by
    intro l
    induction l with
    | nil => simp
    | cons x l ih =>
      intro hx
      obtain ⟨i1, i2⟩ := ih fun y hy => hx y (by simp [hy])
      obtain ⟨x1, x2⟩ := hx x (by simp)
      simp only [List.map_cons, List.sum_cons, List.length_cons]
      constructor
      · rw [add_mul, one_mul]; omega
      · nlinarith
  obtain ⟨s1, s2⟩ := hsum ds fun dd hdd => hw dd (hmem dd hdd)
  rw [hl] at s1
  have hW0 : 0 < (ds.map Spec.dealWeight).sum := lt_of_lt_of_le (by positivity) s1
  have key := outcomes_tail (p := p) (fun dd hdd => hne dd (hmem dd hdd)) hW0 (ε := ε) (by exact_mod_cast hε.le)
    (P := fun sd => decide (ε ≤ |equityIn sd p - mean Ω fun sd => equityIn sd p|)) fun sd _ hsd => by exact_mod_cast of_decide_eq_true hsd
  refine key.trans (mul_le_mul_of_nonneg_left ?_ (Nat.cast_nonneg _))
  refine mul_le_mul_of_nonneg_left (Real.exp_le_exp.2 (neg_le_neg ?_)) (by norm_num)
  have e2 : (ds.map fun dd => (Spec.dealWeight dd : ℝ) ^ 2).sum = ((ds.map fun dd => Spec.dealWeight dd ^ 2).sum : Nat) := by
    rw [Nat.cast_list_sum, List.map_map]
    congr 1
    refine List.map_congr_left fun x _ => ?_
    simp
  have hwmax : 0 < wmax := by
    by_contra h0
    have : wmax = 0 := by omega
    rw [this] at s2 hw
    have : ds ≠ [] := fun e => by rw [e] at hW0; simp at hW0
    obtain ⟨x, hx⟩ := List.exists_mem_of_ne_nil _ this
    have := hw x (hmem x hx)
    omega
  have hV0 : 0 < (ds.map fun dd => Spec.dealWeight dd ^ 2).sum := by
    have : ds ≠ [] := fun e => by rw [e] at hW0; simp at hW0
    obtain ⟨x, hx⟩ := List.exists_mem_of_ne_nil _ this
    have h1 := List.single_le_sum (l := ds.map fun dd => Spec.dealWeight dd ^ 2) (fun _ _ => Nat.zero_le _) _ (List.mem_map_of_mem hx)
    have h2 := (hw x (hmem x hx)).1
    have : 0 < Spec.dealWeight x := by omega
    have : 0 < Spec.dealWeight x ^ 2 := by positivity
    omega
  rw [e2]
  generalize (ds.map fun dd => Spec.dealWeight dd ^ 2).sum = V at *
  generalize (ds.map Spec.dealWeight).sum = W at *
  have r1 : (4096 * K * wmin : ℝ) ≤ W := by exact_mod_cast s1
  have r2 : (V : ℝ) ≤ wmax * W := by exact_mod_cast s2
  have r3 : (0 : ℝ) < V := by exact_mod_cast hV0
  have r4 : (0 : ℝ) < wmax := by exact_mod_cast hwmax
  have r5 : (0 : ℝ) < W := by exact_mod_cast hW0
  rw [div_le_div_iff₀ r4 r3]
  have r6 : (0 : ℝ) ≤ ε ^ 2 := by positivity
  have a1 : (4096 * K * wmin : ℝ) * V ≤ W * (wmax * W) := mul_le_mul r1 r2 r3.le r5.le
  nlinarith

open Classical in
/-- C94: if all ranges were joined and there are at most 4096 deals, the equity returned is off by more than `ε`, the distance of the mean (C89) and a rounding
with a probability of at most `2 exp (-8192 nT ε² wmin / wmax)`, for every scheduler and every cancellation. -/
theorem C94_tail (h : McReady ranges b d s) (hr0 : startResults s = some (r0, flag)) (h1 : s.combinedRanges.length = 1) (hT : 1 / 31622 ≤ T) (hσ : Chooses nT σ)
    {n : Nat} (hn : 8195 * nT ≤ n) (hnT : 0 < nT) (h8 : ranges.length ≤ 8) (hws : WholeShares ranges b d) {wmin wmax : Nat} (hw0 : 0 < wmin)
    (hw : ∀ dd ∈ deals (specRanges ranges) (maskCards b ++ maskCards d), wmin ≤ Spec.dealWeight dd ∧ Spec.dealWeight dd ≤ wmax) (h53 : 4096 * nT * wmax ≤ 2 ^ 53)
    {e δ : ℚ} {p : Nat} (hp : p < ranges.length) (he : equityOf (specRanges ranges) (maskCards b) (maskCards d) p = some e)
    (hδ : ∀ ds, Evaluates ranges b d nT ds → |(mean (outcomes (maskCards b) (maskCards d) ds) fun sd => equityIn sd p) - e| ≤ δ) {ε : ℚ} (hε : 0 < ε) :
    ENNReal.ofReal (1 - 2 * Real.exp (-(8192 * nT * ε ^ 2 * wmin / wmax))) ≤
      expect (adaptive devF prog T s nT σ n [] (McWorld.init s r0 cancelled)) fun w =>
        if AllDone nT w ∧ Within (finishResultsF s flag w.shared.results) p e (ε + δ + 1 / 2 ^ 53) then 1 else 0 := by
  have hbd : ∀ dd ∈ deals (specRanges ranges) (maskCards b ++ maskCards d), boards (maskCards b) (maskCards d) dd ≠ [] := fun _ => h.boards_ne
  have hne : deals (specRanges ranges) (maskCards b ++ maskCards d) ≠ [] := fun e0 => by
    have := (exact_mean h.wf hbd he).1
    rw [e0] at this
    exact absurd this (lt_irrefl 0)
  have key := C93_equity (prog := prog) (cancelled := cancelled) h hr0 hT hσ hn hnT h8 hws (fun dd hdd => ⟨hw0.trans_le (hw dd hdd).1, (hw dd hdd).2⟩) h53 hp
    fun q => |q - e| < ε + δ + 1 / 2 ^ 53
  refine le_trans ?_ key
  rw [C92_single h h1, tsub_zero, one_pow, one_mul]
  refine h.runSpace_le hne nT _ fun ts hlen hts => ?_
  have hev := h.tracks_evaluate h1 ts hts
  rw [hlen] at hev
  have hon : outcomes (maskCards b) (maskCards d) (tracks s b d ts) ≠ [] := by
    unfold outcomes
    exact choices_ne_nil (lists_ne_nil fun dd hdd => hbd dd (hev.mem.2 dd hdd))
  refine average_within_real hon (le_trans ?_ (C94_outcomes hev hbd hnT hw0 hw p hε))
  refine Nat.cast_le.2 (List.countP_mono_left fun sd _ hq => ?_)
  have hq := of_decide_eq_true hq
  refine decide_eq_true ?_
  obtain ⟨m1, m2⟩ := equityIn_range sd p
  have h2 := fl_abs (y := equityIn sd p) (B := 1) (by rw [abs_of_nonneg m1]; exact m2) (zpow_le_one_of_nonpos₀ (by norm_num) (by norm_num))
  have h3 := abs_sub_le (fl (equityIn sd p)) (equityIn sd p) e
  have h4 := abs_sub_le (equityIn sd p) (mean (outcomes (maskCards b) (maskCards d) (tracks s b d ts)) fun sd => equityIn sd p) e
  have h5 := hδ _ hev
  rw [not_lt] at hq
  linarith

open Classical in
/-- C94: the same with the bound of C89 on the distance of the mean, for at most 4096 deals. -/
theorem C94_joined (h : McReady ranges b d s) (hr0 : startResults s = some (r0, flag)) (h1 : s.combinedRanges.length = 1) (hT : 1 / 31622 ≤ T) (hσ : Chooses nT σ)
    {n : Nat} (hn : 8195 * nT ≤ n) (hnT : 0 < nT) (h8 : ranges.length ≤ 8) (hws : WholeShares ranges b d)
    (hm : (deals (specRanges ranges) (maskCards b ++ maskCards d)).length ≤ 4096) {wmin wmax : Nat} (hw0 : 0 < wmin)
    (hw : ∀ dd ∈ deals (specRanges ranges) (maskCards b ++ maskCards d), wmin ≤ Spec.dealWeight dd ∧ Spec.dealWeight dd ≤ wmax) (h53 : 4096 * nT * wmax ≤ 2 ^ 53)
    {e : ℚ} {p : Nat} (hp : p < ranges.length) (he : equityOf (specRanges ranges) (maskCards b) (maskCards d) p = some e) {ε : ℚ} (hε : 0 < ε) :
    let D := deals (specRanges ranges) (maskCards b ++ maskCards d)
    let δ := (D.map fun dd => (Spec.dealWeight dd : ℚ) * |dealEquity (maskCards b) (maskCards d) p dd - e|).sum /
      (2 * ((4096 / D.length : Nat) : ℚ) * ((D.map Spec.dealWeight).sum : Nat))
    ENNReal.ofReal (1 - 2 * Real.exp (-(8192 * nT * ε ^ 2 * wmin / wmax))) ≤
      expect (adaptive devF prog T s nT σ n [] (McWorld.init s r0 cancelled)) fun w =>
        if AllDone nT w ∧ Within (finishResultsF s flag w.shared.results) p e (ε + δ + 1 / 2 ^ 53) then 1 else 0 :=
  C94_tail h hr0 h1 hT hσ hn hnT h8 hws hw0 hw h53 hp he (fun _ hds => C89_bias h.wf hnT hds hm (fun _ => h.boards_ne) he) hε

open Classical in
/-- C94: if moreover the number of deals divides 4096, the mean is the exact equity. -/
theorem C94_rounds (h : McReady ranges b d s) (hr0 : startResults s = some (r0, flag)) (h1 : s.combinedRanges.length = 1) (hT : 1 / 31622 ≤ T) (hσ : Chooses nT σ)
    {n : Nat} (hn : 8195 * nT ≤ n) (hnT : 0 < nT) (h8 : ranges.length ≤ 8) (hws : WholeShares ranges b d)
    (hm : (deals (specRanges ranges) (maskCards b ++ maskCards d)).length ∣ 4096) {wmin wmax : Nat} (hw0 : 0 < wmin)
    (hw : ∀ dd ∈ deals (specRanges ranges) (maskCards b ++ maskCards d), wmin ≤ Spec.dealWeight dd ∧ Spec.dealWeight dd ≤ wmax) (h53 : 4096 * nT * wmax ≤ 2 ^ 53)
    {e : ℚ} {p : Nat} (hp : p < ranges.length) (he : equityOf (specRanges ranges) (maskCards b) (maskCards d) p = some e) {ε : ℚ} (hε : 0 < ε) :
    ENNReal.ofReal (1 - 2 * Real.exp (-(8192 * nT * ε ^ 2 * wmin / wmax))) ≤
      expect (adaptive devF prog T s nT σ n [] (McWorld.init s r0 cancelled)) fun w =>
        if AllDone nT w ∧ Within (finishResultsF s flag w.shared.results) p e (ε + 1 / 2 ^ 53) then 1 else 0 := by
  have hbd : ∀ dd ∈ deals (specRanges ranges) (maskCards b ++ maskCards d), boards (maskCards b) (maskCards d) dd ≠ [] := fun _ => h.boards_ne
  have := C94_tail (prog := prog) (cancelled := cancelled) h hr0 h1 hT hσ hn hnT h8 hws hw0 hw h53 (δ := 0) hp he
    (fun ds hds => by rw [C80_mean h.wf hnT hds hm hbd he, sub_self, abs_zero]) hε
  simpa only [add_zero] using this

open Classical in
/-- C94: with known hands the equity returned is off by `ε` and a rounding or more with a probability of at most `2 exp (-8192 nT ε²)`. -/
theorem C94_hands (h : McReady ranges b d s) (hr0 : startResults s = some (r0, flag)) (h1 : s.combinedRanges.length = 1) (hT : 1 / 31622 ≤ T) (hσ : Chooses nT σ)
    {n : Nat} (hn : 8195 * nT ≤ n) (hnT : 0 < nT) (h8 : ranges.length ≤ 8) (hws : WholeShares ranges b d) {dd : List WHand}
    (hD : deals (specRanges ranges) (maskCards b ++ maskCards d) = [dd]) (hw : 0 < Spec.dealWeight dd) (h53 : 4096 * nT * Spec.dealWeight dd ≤ 2 ^ 53)
    {e : ℚ} {p : Nat} (hp : p < ranges.length) (he : equityOf (specRanges ranges) (maskCards b) (maskCards d) p = some e) {ε : ℚ} (hε : 0 < ε) :
    ENNReal.ofReal (1 - 2 * Real.exp (-(8192 * nT * ε ^ 2))) ≤
      expect (adaptive devF prog T s nT σ n [] (McWorld.init s r0 cancelled)) fun w =>
        if AllDone nT w ∧ Within (finishResultsF s flag w.shared.results) p e (ε + 1 / 2 ^ 53) then 1 else 0 := by
  have := C94_rounds (prog := prog) (cancelled := cancelled) h hr0 h1 hT hσ hn hnT h8 hws (by rw [hD]; exact one_dvd _) hw
    (fun d' hd' => by
      rw [hD, List.mem_singleton] at hd'
      rw [hd']
      exact ⟨le_rfl, le_rfl⟩) h53 hp he hε
  have hw' : (Spec.dealWeight dd : ℝ) ≠ 0 := by exact_mod_cast hw.ne'
  rwa [mul_div_assoc, div_self hw', mul_one] at this

theorem exp_neg_le {x : ℝ} (k : Nat) (hx : (k : ℝ) ≤ x) : Real.exp (-x) ≤ 1 / 2.718 ^ k := by
  have h1 : (2.718 : ℝ) ^ k ≤ Real.exp x := by
    have h2 : (2.718 : ℝ) ≤ Real.exp 1 := by have := Real.exp_one_gt_d9; linarith
    calc (2.718 : ℝ) ^ k ≤ Real.exp 1 ^ k := by gcongr
      _ = Real.exp k := by rw [← Real.exp_nat_mul, mul_one]
      _ ≤ _ := Real.exp_le_exp.2 hx
  rw [Real.exp_neg, ← one_div]
  exact one_div_le_one_div_of_le (by positivity) h1

open Classical in
/-- The hypotheses are met: with threes against ten and five of diamonds on a board with which each wins half of the time, one thread is off by five percent or
more with a probability below one in a hundred million. -/
theorem C94_even : (∃ s r0 flag, McReady evenRanges evenBoard 0 s ∧ startResults s = some (r0, flag)) ∧
    ∀ (prog : Option ℚ → Nat) (cancelled : Bool) (T : ℚ) (s : Sim) (r0 : Results) (flag : Nat) (σ : List McWorld → Bool × Nat) (n : Nat), McReady evenRanges evenBoard 0 s →
      startResults s = some (r0, flag) → 1 / 31622 ≤ T → Chooses 1 σ → 8195 ≤ n →
      ENNReal.ofReal (1 - 1 / 10 ^ 8) ≤ (expect (adaptive devF prog T s 1 σ n [] (McWorld.init s r0 cancelled)) fun w =>
        if AllDone 1 w ∧ Within (finishResultsF s flag w.shared.results) 0 (1 / 2) (1 / 20 + 1 / 2 ^ 53) then 1 else 0) := by
  have hwf := even_wf
  have hb := even_deck
  have hs := even_single
  have h8 : evenRanges.length ≤ 8 := by decide
  have h0 : 0 < evenRanges.length := by decide
  have hv : validate evenRanges.length evenBoard 0 = none := by decide +kernel
  have hD := even_deals
  have hw : Spec.dealWeight [⟨4, 5, 100⟩, ⟨15, 35, 100⟩] = 10000 := by decide
  have hF := even_facts
  have hWh := even_whole
  generalize evenRanges = rs at *
  generalize evenBoard = bd at *
  generalize ([⟨4, 5, 100⟩, ⟨15, 35, 100⟩] : List WHand) = dd at *
  refine ⟨ready_of_deal hwf hb zero_deck hv (by rw [hD]; simp), fun prog cancelled T s r0 flag σ n h hr0 hT hσ hn => ?_⟩
  refine le_trans (ENNReal.ofReal_le_ofReal ?_) (C94_hands (prog := prog) (cancelled := cancelled) h hr0 (by rw [h.crs_length, hs]) hT hσ (n := n) (by omega) one_pos h8 hWh hD
    (by rw [hw]; decide) (by rw [hw]; decide) h0 hF.2.2.2.2 (ε := 1 / 20) (by norm_num))
  have := exp_neg_le (x := 8192 * ((1 : Nat) : ℝ) * ((1 / 20 : ℚ) : ℝ) ^ 2) 20 (by norm_num)
  norm_num at this ⊢
  linarith

/-- King and king of spades and hearts against the queens of the same suits. -/
def kingsQueens : List (List Combo) := [[⟨45, 44, 100⟩], [⟨41, 40, 100⟩]]

open Classical in
/-- C94: before the flop, four threads report the equity of kings against queens of the same suits to two percent, but for a probability of five in a
million. -/
theorem C94_kings_queens : (∃ s r0 flag, McReady kingsQueens 0 0 s ∧ startResults s = some (r0, flag)) ∧
    ∀ (prog : Option ℚ → Nat) (cancelled : Bool) (s : Sim) (r0 : Results) (flag : Nat) (σ : List McWorld → Bool × Nat) (n : Nat), McReady kingsQueens 0 0 s →
      startResults s = some (r0, flag) → Chooses 4 σ → 32780 ≤ n →
      ENNReal.ofReal (1 - 5 / 10 ^ 6) ≤ (expect (adaptive devF prog (fl 0.001) s 4 σ n [] (McWorld.init s r0 cancelled)) fun w =>
        if AllDone 4 w ∧ Within (finishResultsF s flag w.shared.results) 0 (2829580 / 3424608) (1 / 50 + 1 / 2 ^ 53) then 1 else 0) := by
  have hwf : ∀ r ∈ kingsQueens, WfRange r := by unfold WfRange kingsQueens; decide
  have hl : kingsQueens.length = 2 := rfl
  have hv : validate kingsQueens.length 0 0 = none := by decide +kernel
  have hD : deals (specRanges kingsQueens) (maskCards 0 ++ maskCards 0) = [[(45, 44, 100), (41, 40, 100)]] := by decide +kernel
  have hw : Spec.dealWeight [(45, 44, 100), (41, 40, 100)] = 10000 := by decide
  have hws : WholeShares kingsQueens 0 0 := C61_two_players hwf hl (p := 0) (by decide) (by decide)
  have he : equityOf (specRanges kingsQueens) (maskCards 0) (maskCards 0) 0 = some (2829580 / 3424608) := by
    have := C88_kings_queens (h := (45, 44, 100)) (v := (41, 40, 100)) (by decide) (by decide)
    rw [show Kernel.shared (45, 44, 100) (41, 40, 100) = 2 by decide] at this
    exact_mod_cast this
  have hs : (fromRanges (kingsQueens.map fun h => removeConflictingCombos h 0 0)).length = 1 := by decide +kernel
  generalize kingsQueens = rs at *
  generalize ([(45, 44, 100), (41, 40, 100)] : List WHand) = dd at *
  refine ⟨ready_of_deal hwf zero_deck zero_deck hv (by rw [hD]; simp), fun prog cancelled s r0 flag σ n h hr0 hσ hn => ?_⟩
  refine le_trans (ENNReal.ofReal_le_ofReal ?_) (C94_hands (prog := prog) (cancelled := cancelled) h hr0 (by rw [h.crs_length, hs])
    (show 1 / 31622 ≤ fl 0.001 by decide +kernel) hσ (n := n) (by omega) (by decide) (by omega) hws hD
    (by rw [hw]; decide) (by rw [hw]; decide) (by omega) he (ε := 1 / 50) (by norm_num))
  have := exp_neg_le (x := 8192 * ((4 : Nat) : ℝ) * ((1 / 50 : ℚ) : ℝ) ^ 2) 13 (by norm_num)
  norm_num at this ⊢
  linarith

end Pokers
