import Verif.Proofs.ChanceOnce
import Verif.Props.Chance
import Verif.Props.FloatStop
import Verif.Proofs.ChanceRounds
import Verif.Props.ApproxWeighted
/-!
# C93: the probabilities of a run that ends by itself
-/
namespace Pokers

open Spec
open scoped ENNReal

variable {dev : ℚ → ℚ → Option ℚ} {prog : Option ℚ → Nat} {T : ℚ} {ranges : List (List Combo)} {b d nT : Nat} {s : Sim} {r0 : Results} {flag : Nat}
  {σ : List McWorld → Bool × Nat} {cancelled : Bool}

/-! ## The law of the results -/

theorem once_init (hr0 : startResults s = some (r0, flag)) :
    Once s b d nT (McWorld.init s r0 cancelled) (fun _ => McLocal.init s.nPlayers) fun _ => 0 := by
  have hc := init_mcWorldClose hr0 cancelled
  refine ⟨fun t _ => hc.locals t, fun t _ => good_init s b d fun p _ => rfl, fun t _ => ⟨⟨rfl, rfl⟩, rfl⟩, ⟨_, hc.shared, ?_⟩, fun t _ e => ?_, fun _ => start_noBatch hr0⟩
  · show trunc s.nPlayers (resFull r0) = _
    rw [(startResults_counts hr0).2.2.1, map_zero, Finset.sum_const_zero]
  · exact absurd e (by show ¬ 8195 ≤ 2; omega)

theorem prospect_init (h : McReady ranges b d s) {g1 : McShared} (hg : g1.stopped = true) (φ : FT → ℝ≥0∞) :
    prospect s g1 nT φ (fun _ => McLocal.init s.nPlayers) (fun _ => 0) =
      (1 - noDealChance ranges b d s) ^ nT * average (runSpace s b d nT) fun sd => φ (trunc ranges.length (showsFull sd)) := by
  have hn := h.fields.1
  unfold prospect
  rw [← h.misses_eq, ← hn]
  refine h.together_once hg (good_init s b d fun p _ => rfl) rfl ⟨rfl, rfl⟩ _ nT φ _ (fun f' _ e => if_pos e) (fun f' _ e => if_neg fun e' => ?_)
  obtain ⟨t, ht, e⟩ := e
  exact e (e' t ht).2

/-- C93: whatever the order of the steps of the threads, and whenever the token is set, each thread finds a deal for its batch with probability
`1 - noDealChance`, and if they all do, the counters of the results are distributed like those of a uniform choice from `runSpace`, one batch for each thread. -/
theorem C93_law (h : McReady ranges b d s) (hr0 : startResults s = some (r0, flag)) (hT : 1 / 31622 ≤ T) (hσ : Chooses nT σ) {n : Nat} (hn : 8195 * nT ≤ n)
    (φ : (Nat → Nat) × (Nat → Nat × Nat × Nat) × Nat → ℝ≥0∞) :
    (1 - noDealChance ranges b d s) ^ nT * average (runSpace s b d nT) (fun sd => φ (wholes (trunc ranges.length (showsFull sd)))) ≤
      expect (adaptive devF prog T s nT σ n [] (McWorld.init s r0 cancelled)) (outcome s nT φ) := by
  rw [← prospect_init h (g1 := { (McWorld.init s r0 cancelled).shared with stopped := true }) rfl fun x => φ (wholes x)]
  refine (h.adaptive_law rfl hT hσ n [] _ _ _ (once_init hr0) ?_).1
  rw [Finset.sum_const, Finset.card_range, smul_eq_mul, mul_comm]
  exact hn

/-- C93: if all ranges were joined, these are all the probabilities there are. -/
theorem C93_law_single (h : McReady ranges b d s) (hr0 : startResults s = some (r0, flag)) (h1 : s.combinedRanges.length = 1) (hT : 1 / 31622 ≤ T)
    (hσ : Chooses nT σ) {n : Nat} (hn : 8195 * nT ≤ n) (φ : (Nat → Nat) × (Nat → Nat × Nat × Nat) × Nat → ℝ≥0∞) :
    expect (adaptive devF prog T s nT σ n [] (McWorld.init s r0 cancelled)) (outcome s nT φ) =
      average (runSpace s b d nT) fun sd => φ (wholes (trunc ranges.length (showsFull sd))) := by
  refine le_antisymm ?_ (le_trans (le_of_eq ?_) (C93_law h hr0 hT hσ hn φ))
  · have e := prospect_init h (nT := nT) (g1 := { (McWorld.init s r0 cancelled).shared with stopped := true }) rfl fun x => φ (wholes x)
    rw [C92_single h h1, tsub_zero, one_pow, one_mul] at e
    rw [← e]
    refine (h.adaptive_law rfl hT hσ n [] _ _ _ (once_init hr0) ?_).2 h1
    rw [Finset.sum_const, Finset.card_range, smul_eq_mul, mul_comm]
    exact hn
  · rw [C92_single h h1, tsub_zero, one_pow, one_mul]

/-! ## Runs -/

theorem McReady.adaptive_good (h : McReady ranges b d s) (hσ : Chooses nT σ) (w0 : McWorld) : ∀ (n : Nat) (past : List McWorld) (w : McWorld) (q : Draws) (w' : McWorld),
    GoodF s b d nT w → adaptive dev prog T s nT σ n past w q = .ok w' [] → McStepsF dev prog T s nT w0 w → McStepsF dev prog T s nT w0 w'
  | 0, _, w, q, w', _, e, hw => by
    injection e with e _
    rw [← e]; exact hw
  | n + 1, past, w, q, w', hg, e, hw => by
    unfold adaptive at e
    by_cases hd : AllDone nT w
    · rw [if_pos hd] at e
      injection e with e _
      rw [← e]; exact hw
    · rw [if_neg hd] at e
      obtain ⟨ht, hpc⟩ := hσ w past hd
      have hgm := hg.mark (σ (w :: past)).1
      have hwm : McStepsF dev prog T s nT w0 (w.mark (σ (w :: past)).1) := by
        cases (σ (w :: past)).1
        · exact hw
        · exact .step hw (.cancel w)
      rw [← mark_locals (σ (w :: past)).1 w] at hpc
      generalize w.mark (σ (w :: past)).1 = w1 at *
      generalize (σ (w :: past)).2 = t at *
      obtain ⟨r1, _, r3⟩ := h.goodF_step (dev := dev) (prog := prog) (target := T) hgm ht
      obtain ⟨w2, r, e1, e2⟩ := bindD_ok e
      obtain ⟨p, _, e3⟩ := r1 q w2 r e1
      have e4 := e3 []
      rw [List.append_nil] at e4
      refine h.adaptive_good hσ w0 n (w :: past) w2 r w' (r3 p w2 e4) e2 ?_
      obtain ⟨y, r', e5, e6⟩ := bindD_ok e4
      injection e6 with e6 e7
      subst e6 e7
      obtain ⟨l, hl, hc⟩ := hgm t ht
      exact .step hwm (.thread w1 t ht ⟨hpc, by rw [hc.pc]; exact hl.calm⟩ p y.1 y.2 e5)

theorem goodF_init (s : Sim) (b d nT : Nat) (hr0 : startResults s = some (r0, flag)) : GoodF s b d nT (McWorld.init s r0 cancelled) :=
  fun t _ => ⟨_, good_init s b d fun _ _ => rfl, (init_mcWorldClose hr0 cancelled).locals t⟩

/-- C93: these are runs of the program: when all threads have ended, it returns the results. -/
theorem C93_run (h : McReady ranges b d s) (hr0 : startResults s = some (r0, flag)) (hσ : Chooses nT σ) {n : Nat} {q : Draws} {w : McWorld}
    (hq : adaptive dev prog T s nT σ n [] (McWorld.init s r0 cancelled) q = .ok w []) (hd : AllDone nT w) :
    ApproxEquityF dev prog ranges b d nT T cancelled (.ok (finishResultsF s flag w.shared.results)) w.shared.sent :=
  ⟨.ok s, h.ok, r0, flag, w, hr0, h.adaptive_good hσ _ n [] _ q w (goodF_init s b d nT hr0) hq .refl, hd, rfl, rfl⟩

/-- C93: the probabilities of all that can happen add up to 1. -/
theorem McReady.adaptive_total (h : McReady ranges b d s) (hσ : Chooses nT σ) : ∀ (n : Nat) (past : List McWorld) (w : McWorld), GoodF s b d nT w →
    expect (adaptive dev prog T s nT σ n past w) (fun _ => 1) = 1
  | 0, _, w, _ => expect_ret _ _
  | n + 1, past, w, hg => by
    unfold adaptive
    by_cases hd : AllDone nT w
    · rw [if_pos hd, expect_ret]
    · rw [if_neg hd]
      obtain ⟨ht, _⟩ := hσ w past hd
      have hgm := hg.mark (σ (w :: past)).1
      generalize w.mark (σ (w :: past)).1 = w1 at *
      generalize (σ (w :: past)).2 = t at *
      obtain ⟨r1, _, r3⟩ := h.goodF_step (dev := dev) (prog := prog) (target := T) hgm ht
      rw [expect_bind_one r1 fun q a e => ⟨(h.adaptive_ends hσ n _ a (r3 q a e)).2, h.adaptive_total hσ n _ a (r3 q a e)⟩]
      obtain ⟨l, hl, hc⟩ := hgm t ht
      obtain ⟨m1, _, m3, m4⟩ := h.stepF_same (dev := dev) (prog := prog) (target := T) (g1 := w1.shared) (g' := w1.shared) hl hc fun _ => rfl
      unfold stepF
      rw [expect_bind_ret m1]
      refine Eq.trans ?_ (h.total_step (sqrt := id) (target := 0) hl w1.shared)
      refine le_antisymm (expect_le_of (fun q y' e => ?_) m4) (expect_le_of (fun q y e => ?_) fun q y' e => ?_)
      · obtain ⟨y, e1, _⟩ := m3 q y' e
        exact ⟨y, e1, le_refl _⟩
      · obtain ⟨y', e1⟩ := m4 q y e
        exact ⟨y', e1, le_refl _⟩
      · obtain ⟨y, e1, _⟩ := m3 q y' e
        exact ⟨y, e1⟩

theorem C93_total (h : McReady ranges b d s) (hr0 : startResults s = some (r0, flag)) (hσ : Chooses nT σ) (n : Nat) :
    expect (adaptive dev prog T s nT σ n [] (McWorld.init s r0 cancelled)) (fun _ => 1) = 1 :=
  h.adaptive_total hσ n [] _ (goodF_init s b d nT hr0)

open Classical in
/-- There is always a thread to choose. -/
theorem chooses_first (nT : Nat) (c : List McWorld → Bool) : Chooses nT fun ws => (c ws, match ws with
    | [] => 0
    | w :: _ => if h : ∃ t, t < nT ∧ (w.locals t).pc ≠ .done then Nat.find h else 0) := by
  intro w past hd
  have h : ∃ t, t < nT ∧ (w.locals t).pc ≠ .done := by
    unfold AllDone at hd
    push Not at hd
    exact hd
  show (if h : _ then Nat.find h else 0) < nT ∧ (w.locals (if h : _ then Nat.find h else 0)).pc ≠ .done
  rw [dif_pos h]
  exact Nat.find_spec h

/-! ## Accuracy -/

theorem equityIn_range (sd : List (List WHand × List Nat)) (p : Nat) : 0 ≤ equityIn sd p ∧ equityIn sd p ≤ 1 := by
  unfold equityIn
  have h0 : 0 ≤ (sd.map (winning p)).sum := List.sum_nonneg fun y hy => by
    obtain ⟨x, _, rfl⟩ := List.mem_map.1 hy
    rw [winning_eq]
    exact mul_nonneg (Nat.cast_nonneg _) (potShare_range p x).1
  have h1 : (sd.map (winning p)).sum ≤ totalWeight sd := by
    unfold totalWeight
    rw [Nat.cast_list_sum, List.map_map]
    refine List.sum_le_sum fun x _ => ?_
    rw [winning_eq]
    exact mul_le_of_le_one_right (Nat.cast_nonneg _) (potShare_range p x).2
  exact ⟨div_nonneg h0 (Nat.cast_nonneg _), div_le_one_of_le₀ h1 (Nat.cast_nonneg _)⟩

theorem finishResultsF_masks (s : Sim) (flag : Nat) (r : Results) : (finishResultsF s flag r).winsByMask = r.winsByMask := by
  unfold finishResultsF
  simp only
  have h : ∀ r : Results, (generateFinalDataF s.nPlayers (getEquityF s.nPlayers r)).winsByMask = r.winsByMask := fun r => rfl
  split
  · exact h _
  · exact h _

theorem masks_total {n : Nat} {sd : List (List WHand × List Nat)} (hl : ∀ x ∈ sd, x.1.length = n) (h8 : n ≤ 8) (p : Nat) :
    equityFrom n (wholes (trunc n (showsFull sd))).1 p = equityIn sd p ∧ ∑ i ∈ Finset.range (2 ^ n), (wholes (trunc n (showsFull sd))).1 i = totalWeight sd :=
  equityFrom_eq (m := (trunc n (showsFull sd)).1.1) hl h8 (fun i hi => by
    show cut (2 ^ n) (sdTally sd).1 i = _
    rw [cut_apply _ hi, sdTally_mask]) p

/-- What the program with floating-point numbers returns: the equity that can be computed from the counters, rounded once. -/
theorem equity_of_masks (hwf : ∀ r ∈ ranges, WfRange r) (hb : CardMask b) (hd : CardMask d) (h8 : ranges.length ≤ 8) (hws : WholeShares ranges b d)
    {r : Results} {sent : List Nat} (hr : ApproxEquityF dev prog ranges b d nT T cancelled (.ok r) sent) {p : Nat} (hp : p < ranges.length)
    {m : Nat → Nat} (hm : m = (wholes (trunc ranges.length (resFull r))).1) (h0 : 0 < ∑ i ∈ Finset.range (2 ^ ranges.length), m i)
    (h53 : ∑ i ∈ Finset.range (2 ^ ranges.length), m i ≤ 2 ^ 53) :
    r.equities[p]? = some (some (fl (equityFrom ranges.length m p))) ∧ 0 ≤ equityFrom ranges.length m p ∧ equityFrom ranges.length m p ≤ 1 := by
  obtain ⟨r1, sent1, g1, g2, g3⟩ := C63_approx_mode hwf hb hd hr
  obtain ⟨s, flag, r0, hist, sd, hrun, _, _⟩ := approx_tracks hwf hb hd g1
  have hf := hrun.full
  rw [hrun.ready.fields.1] at hf
  have hl : ∀ x ∈ sd, x.1.length = ranges.length := fun x hx => (deals_wf hwf (hrun.legal x hx).1).1
  have hm' : m = (wholes (trunc ranges.length (showsFull sd))).1 := by
    rw [← hf, hm]
    show cut _ r.winsByMask = cut _ r1.winsByMask
    rw [g2.masks]
  obtain ⟨e1, e2⟩ := masks_total hl h8 p
  rw [← hm'] at e1 e2
  rw [e2] at h0 h53
  rw [e1]
  have hsum : ∑ i ∈ Finset.range (2 ^ ranges.length), r1.winsByMask i = totalWeight sd := hrun.counts.1.maskSum hl (by omega)
  refine ⟨?_, equityIn_range sd p⟩
  rw [g2.once (by rw [hsum]; exact h53), List.getElem?_map, (hrun.calc.exact_shares h8 hws).2 p hp, ← winning_sum]
  unfold fdiv equityIn
  rw [if_neg (by exact_mod_cast h0.ne')]
  rfl

theorem finish_wholes (n : Nat) (s : Sim) (flag : Nat) (r : Results) : (wholes (trunc n (resFull (finishResultsF s flag r)))).1 = (wholes (trunc n (resFull r))).1 := by
  show cut _ (finishResultsF s flag r).winsByMask = cut _ r.winsByMask
  rw [finishResultsF_masks]

theorem McReady.runSpace_ne (h : McReady ranges b d s) (hne : deals (specRanges ranges) (maskCards b ++ maskCards d) ≠ []) (K : Nat) : runSpace s b d K ≠ [] := by
  obtain ⟨B, hB⟩ := List.exists_mem_of_ne_nil (batchSpace s b d) (by exact (h.balanced hne fun _ => h.boards_ne).space_ne)
  exact List.ne_nil_of_mem (mem_runSpace.2 ⟨List.replicate K B, List.length_replicate .., fun C hC => by rw [List.eq_of_mem_replicate hC]; exact hB, rfl⟩)

open Classical in
/-- C93: the equity returned is the equity of a uniform choice from `runSpace`, rounded once: a property of it has at least the probability it has
there. -/
theorem C93_equity (h : McReady ranges b d s) (hr0 : startResults s = some (r0, flag)) (hT : 1 / 31622 ≤ T) (hσ : Chooses nT σ) {n : Nat} (hn : 8195 * nT ≤ n)
    (hnT : 0 < nT) (h8 : ranges.length ≤ 8) (hws : WholeShares ranges b d) {wmax : Nat}
    (hw : ∀ dd ∈ deals (specRanges ranges) (maskCards b ++ maskCards d), 0 < Spec.dealWeight dd ∧ Spec.dealWeight dd ≤ wmax) (h53 : 4096 * nT * wmax ≤ 2 ^ 53)
    {p : Nat} (hp : p < ranges.length) (Q : ℚ → Prop) [DecidablePred Q] :
    (1 - noDealChance ranges b d s) ^ nT * average (runSpace s b d nT) (fun sd => if Q (fl (equityIn sd p)) then 1 else 0) ≤
      expect (adaptive devF prog T s nT σ n [] (McWorld.init s r0 cancelled)) fun w =>
        if AllDone nT w ∧ ∃ q, (finishResultsF s flag w.shared.results).equities[p]? = some (some q) ∧ Q q then 1 else 0 := by
  let R : (Nat → Nat) × (Nat → Nat × Nat × Nat) × Nat → Prop := fun x => 0 < ∑ i ∈ Finset.range (2 ^ ranges.length), x.1 i ∧
    ∑ i ∈ Finset.range (2 ^ ranges.length), x.1 i ≤ 2 ^ 53 ∧ Q (fl (equityFrom ranges.length x.1 p))
  have step1 := C93_law (prog := prog) (cancelled := cancelled) h hr0 hT hσ hn fun x => if R x then 1 else 0
  refine le_trans (le_trans (mul_le_mul_right (le_of_eq ?_) _) step1) (expect_mono fun q w hq => ?_)
  · refine average_congr fun sd hsd => ?_
    obtain ⟨hl, hm⟩ := runSpace_mem h hsd
    obtain ⟨e1, e2⟩ := masks_total (fun x hx => (deals_wf h.wf (hm x hx)).1) h8 p
    have hpos : 0 < totalWeight sd := by
      obtain ⟨x, hx⟩ := List.exists_mem_of_ne_nil sd (by rintro rfl; simp at hl; omega)
      exact totalWeight_pos hx (hw _ (hm x hx)).1
    have hle : totalWeight sd ≤ 2 ^ 53 := by
      refine le_trans ?_ h53
      unfold totalWeight
      refine le_trans (List.sum_le_card_nsmul _ wmax fun y hy => ?_) (by rw [List.length_map, hl, smul_eq_mul])
      obtain ⟨x, hx, rfl⟩ := List.mem_map.1 hy
      exact (hw _ (hm x hx)).2
    refine if_congr ?_ rfl rfl
    show _ ↔ (_ ∧ _ ∧ _)
    rw [e1, e2]
    exact ⟨fun k => ⟨hpos, hle, k⟩, fun k => k.2.2⟩
  · unfold outcome
    by_cases hdn : AllDone nT w
    swap
    · rw [if_neg hdn]; exact zero_le
    rw [if_pos hdn]
    dsimp only
    by_cases hcw : R (wholes (trunc s.nPlayers (resFull w.shared.results)))
    swap
    · rw [if_neg hcw]; exact zero_le
    rw [if_pos hcw, if_pos]
    obtain ⟨c1, c2, c3⟩ := hcw
    rw [h.fields.1] at c1 c2 c3
    exact ⟨hdn, _, (equity_of_masks h.wf h.boardMask h.deadMask h8 hws (C93_run h hr0 hσ hq hdn) hp (finish_wholes ..).symm c1 c2).1, c3⟩

open Classical in
/-- C93: the probability that the program, by itself or cancelled, ends after one batch of each thread and returns the equity of player `p` to less than
`ε` and half a unit in the last place. -/
theorem C93_accuracy (h : McReady ranges b d s) (hr0 : startResults s = some (r0, flag)) (hT : 1 / 31622 ≤ T) (hσ : Chooses nT σ) {n : Nat} (hn : 8195 * nT ≤ n)
    (hnT : 0 < nT) (h8 : ranges.length ≤ 8) (hws : WholeShares ranges b d) {wmin wmax : Nat} (hw0 : 0 < wmin)
    (hw : ∀ dd ∈ deals (specRanges ranges) (maskCards b ++ maskCards d), wmin ≤ Spec.dealWeight dd ∧ Spec.dealWeight dd ≤ wmax) (h53 : 4096 * nT * wmax ≤ 2 ^ 53)
    {e : ℚ} {p : Nat} (hp : p < ranges.length) (he : equityOf (specRanges ranges) (maskCards b) (maskCards d) p = some e) {ε : ℚ} (hε : 0 < ε) :
    let D := deals (specRanges ranges) (maskCards b ++ maskCards d)
    let V := mean D fun dd => (Spec.dealWeight dd : ℚ) ^ 2 * dealVariance (maskCards b) (maskCards d) p dd
    let U := mean D fun dd => (Spec.dealWeight dd : ℚ) ^ 2 * (dealEquity (maskCards b) (maskCards d) p dd - e) ^ 2
    (1 - noDealChance ranges b d s) ^ nT * ENNReal.ofReal ((1 - (V / 4096 + U) / (nT * ε ^ 2 * wmin ^ 2) : ℚ) : ℝ) ≤
      expect (adaptive devF prog T s nT σ n [] (McWorld.init s r0 cancelled)) fun w =>
        if AllDone nT w ∧ Within (finishResultsF s flag w.shared.results) p e (ε + 1 / 2 ^ 53) then 1 else 0 := by
  intro D V U
  have hbd : ∀ dd ∈ deals (specRanges ranges) (maskCards b ++ maskCards d), boards (maskCards b) (maskCards d) dd ≠ [] := fun _ => h.boards_ne
  have hD0 : deals (specRanges ranges) (maskCards b ++ maskCards d) ≠ [] := fun e0 => by
    have := (exact_mean h.wf hbd he).1
    rw [e0] at this
    exact absurd this (lt_irrefl 0)
  have key := C93_equity (prog := prog) (cancelled := cancelled) h hr0 hT hσ hn hnT h8 hws (fun dd hdd => ⟨hw0.trans_le (hw dd hdd).1, (hw dd hdd).2⟩) h53 hp
    fun q => |q - e| < ε + 1 / 2 ^ 53
  refine le_trans (mul_le_mul_right ?_ _) key
  refine average_within (h.runSpace_ne hD0 nT) (Q := fun sd => ε ≤ |equityIn sd p - e|) (fun sd _ hq => ?_) (C91_accuracy h hbd hnT hw0 (fun dd hdd => (hw dd hdd).1) he hε)
  obtain ⟨m1, m2⟩ := equityIn_range sd p
  have := fl_abs (y := equityIn sd p) (B := 1) (by rw [abs_of_nonneg m1]; exact m2) (zpow_le_one_of_nonpos₀ (by norm_num) (by norm_num))
  have h3 := abs_sub_le (fl (equityIn sd p)) (equityIn sd p) e
  have h4 := not_le.1 hq
  linarith

/-! ## The test of the random simulation -/

open Classical in
/-- C93: the test `test_approx_weighted` passes with a probability of at least four fifths, whatever the threads do. -/
theorem C93_approx_weighted : ∃ ranges, fromStrings asciiLower ["KK".toList, "AA@1,QQ".toList] = .ok ranges ∧
    (∃ s r0 flag, McReady ranges 0 0 s ∧ startResults s = some (r0, flag)) ∧
    ∀ (prog : Option ℚ → Nat) (cancelled : Bool) (s : Sim) (r0 : Results) (flag : Nat) (σ : List McWorld → Bool × Nat) (n : Nat), McReady ranges 0 0 s →
      startResults s = some (r0, flag) → Chooses 4 σ → 32780 ≤ n →
      ENNReal.ofReal (4 / 5) ≤ expect (adaptive devF prog (fl 0.001) s 4 σ n [] (McWorld.init s r0 cancelled)) fun w =>
        if AllDone 4 w ∧ ∃ x, (finishResultsF s flag w.shared.results).equities[0]? = some (some x) ∧ TestPasses x then 1 else 0 := by
  obtain ⟨ranges, hok, hwf, h2, hD, he, hw, h1⟩ := weighted_ranges
  have hm : maskCards 0 = [] := by decide
  have hl : (deals (specRanges ranges) (maskCards 0 ++ maskCards 0)).length = 72 := hD.length_eq.trans weighted_length
  have hne : deals (specRanges ranges) (maskCards 0 ++ maskCards 0) ≠ [] := fun e => by rw [e] at hl; cases hl
  have hmem : ∀ dd ∈ deals (specRanges ranges) (maskCards 0 ++ maskCards 0), KnownDeal dd := fun dd hdd => knownDeal (hD.mem_iff.1 hdd)
  refine ⟨ranges, hok, ready_of_deal hwf zero_deck zero_deck (by rw [h2]; decide) hne, fun prog cancelled s r0 flag σ n h hr0 hσ hn => ?_⟩
  clear hok
  have hs1 : s.combinedRanges.length = 1 := by rw [h.crs_length, h1]
  have key := C93_equity (prog := prog) (cancelled := cancelled) h hr0 (show 1 / 31622 ≤ fl 0.001 by decide +kernel) hσ (n := n) hn (by decide) (by omega) hw
    (wmax := 10000) (fun dd hdd => ⟨lt_of_lt_of_le (by decide) (hmem dd hdd).light, (hmem dd hdd).heavy⟩) (by decide) (p := 0) (by omega) TestPasses
  refine le_trans ?_ key
  rw [C92_single h hs1, tsub_zero, one_pow, one_mul]
  refine h.runSpace_le hne 4 _ fun ts hlen hts => ?_
  have hev := h.tracks_evaluate hs1 ts hts
  rw [hlen] at hev
  have hb := (weighted_bound hwf hD he hev).2.2
  have hon : outcomes [] [] (tracks s 0 0 ts) ≠ [] := by
    unfold outcomes
    rw [← List.length_pos_iff, choices_length]
    refine List.prod_pos fun a ha => ?_
    obtain ⟨l, hl, rfl⟩ := List.mem_map.1 ha
    obtain ⟨dd, hdd, rfl⟩ := List.mem_map.1 hl
    rw [List.length_map, List.length_pos_iff]
    exact (hmem dd (hev.mem.2 dd hdd)).boards
  rw [hm]
  refine le_trans (le_of_eq ?_) (average_within hon (Q := fun sd => ¬ TestPasses (fl (equityIn sd 0))) (x := 1 / 5) (fun sd _ hq => not_not.1 hq) ?_)
  · congr 1; norm_num
  · have : ((5 * (outcomes [] [] (tracks s 0 0 ts)).countP fun sd => decide (¬ TestPasses (fl (equityIn sd 0))) : Nat) : ℚ) ≤ (outcomes [] [] (tracks s 0 0 ts)).length := by
      exact_mod_cast hb
    push_cast at this
    convert (by linarith : ((outcomes [] [] (tracks s 0 0 ts)).countP (fun sd => decide (¬ TestPasses (fl (equityIn sd 0)))) : ℚ) ≤
      (outcomes [] [] (tracks s 0 0 ts)).length * (1 / 5)) using 3

/-! ## Given hands -/

open Classical in
/-- C93: with the probability with which all threads find a deal, the program ends after exactly one batch of each thread. -/
theorem C93_ends (h : McReady ranges b d s) (hr0 : startResults s = some (r0, flag)) (hT : 1 / 31622 ≤ T) (hσ : Chooses nT σ) {n : Nat} (hn : 8195 * nT ≤ n)
    (hne : deals (specRanges ranges) (maskCards b ++ maskCards d) ≠ []) :
    (1 - noDealChance ranges b d s) ^ nT ≤ expect (adaptive devF prog T s nT σ n [] (McWorld.init s r0 cancelled)) fun w =>
      if AllDone nT w ∧ w.shared.results.evalCount = 4096 * nT then 1 else 0 := by
  have key := C93_law (prog := prog) (cancelled := cancelled) h hr0 hT hσ hn fun x => if x.2.2 = 4096 * nT then 1 else 0
  refine le_trans (le_of_eq ?_) (key.trans (expect_mono fun q w hq => ?_))
  · rw [average_congr (g := fun _ => 1) fun sd hsd => if_pos ?_, average_const (h.runSpace_ne hne nT), mul_one]
    exact (runSpace_mem h hsd).1
  · unfold outcome
    by_cases hdn : AllDone nT w
    swap
    · rw [if_neg hdn]; exact zero_le
    rw [if_pos hdn]
    dsimp only
    by_cases hx : w.shared.results.evalCount = 4096 * nT
    · rw [if_pos (⟨hdn, hx⟩ : AllDone nT w ∧ w.shared.results.evalCount = 4096 * nT)]
      split <;> simp
    · rw [if_neg (show ¬ (wholes (trunc s.nPlayers (resFull w.shared.results))).2.2 = 4096 * nT from hx)]
      exact zero_le

open Classical in
/-- C93: if only one deal is possible, the equity returned is off by `ε` or more with a probability of at most `1 / (16384 nT ε²)`. -/
theorem C93_hands (h : McReady ranges b d s) (hr0 : startResults s = some (r0, flag)) (h1 : s.combinedRanges.length = 1) (hT : 1 / 31622 ≤ T) (hσ : Chooses nT σ)
    {n : Nat} (hn : 8195 * nT ≤ n) (hnT : 0 < nT) (h8 : ranges.length ≤ 8) (hws : WholeShares ranges b d) {dd : List WHand}
    (hD : deals (specRanges ranges) (maskCards b ++ maskCards d) = [dd]) (hw : 0 < Spec.dealWeight dd) (h53 : 4096 * nT * Spec.dealWeight dd ≤ 2 ^ 53)
    {e : ℚ} {p : Nat} (hp : p < ranges.length) (he : equityOf (specRanges ranges) (maskCards b) (maskCards d) p = some e) {ε : ℚ} (hε : 0 < ε) :
    ENNReal.ofReal ((1 - 1 / (16384 * nT * ε ^ 2) : ℚ) : ℝ) ≤
      expect (adaptive devF prog T s nT σ n [] (McWorld.init s r0 cancelled)) fun w =>
        if AllDone nT w ∧ Within (finishResultsF s flag w.shared.results) p e (ε + 1 / 2 ^ 53) then 1 else 0 := by
  have hdd : dd ∈ deals (specRanges ranges) (maskCards b ++ maskCards d) := by rw [hD]; simp
  have hbd : ∀ dd ∈ deals (specRanges ranges) (maskCards b ++ maskCards d), boards (maskCards b) (maskCards d) dd ≠ [] := fun _ => h.boards_ne
  have key := C93_accuracy (prog := prog) (cancelled := cancelled) h hr0 hT hσ hn hnT h8 hws hw
    (fun d' hd' => by
      rw [hD, List.mem_singleton] at hd'
      rw [hd']
      exact ⟨le_rfl, le_rfl⟩) h53 hp he hε
  refine le_trans ?_ key
  rw [C92_single h h1, tsub_zero, one_pow, one_mul, hD]
  refine ENNReal.ofReal_le_ofReal ?_
  have hone : ∀ f : List WHand → ℚ, mean [dd] f = f dd := fun f => by unfold mean; simp
  have heq : dealEquity (maskCards b) (maskCards d) p dd = e := by
    obtain ⟨k1, k2⟩ := exact_mean h.wf hbd he
    rw [hD] at k1 k2
    simp only [List.map_cons, List.map_nil, List.sum_cons, List.sum_nil, add_zero] at k1 k2
    rw [k2, mul_div_cancel_left₀ _ (by exact_mod_cast k1.ne')]
  have hv : dealVariance (maskCards b) (maskCards d) p dd ≤ 1 / 4 := by
    refine (variance_le (hbd dd hdd) fun B _ => potShare_range p (dd, B)).trans ?_
    nlinarith [sq_nonneg ((mean (boards (maskCards b) (maskCards d) dd) fun B => potShare p (dd, B)) - 1 / 2)]
  rw [hone, hone, heq]
  have hwQ : (0 : ℚ) < Spec.dealWeight dd := by exact_mod_cast hw
  have hnQ : (0 : ℚ) < nT := by exact_mod_cast hnT
  have : ((Spec.dealWeight dd : ℚ) ^ 2 * dealVariance (maskCards b) (maskCards d) p dd / 4096 + (Spec.dealWeight dd : ℚ) ^ 2 * (e - e) ^ 2) /
      (nT * ε ^ 2 * (Spec.dealWeight dd : ℚ) ^ 2) ≤ 1 / (16384 * nT * ε ^ 2) := by
    rw [sub_self, div_le_div_iff₀ (by positivity) (by positivity)]
    have : (0 : ℚ) < (Spec.dealWeight dd : ℚ) ^ 2 * (nT * ε ^ 2) := by positivity
    nlinarith
  exact_mod_cast sub_le_sub_left this 1

open Classical in
/-- C93 (finding): the target does not make the result accurate.  Let the hands be known and one player win on half of the boards and lose on the others.
For every target of at least `1 / 31622`, the result of one thread is off by `1 / 4096` or more with a probability of at least 63 in 64. -/
theorem C93_missed (h : McReady ranges b d s) (hr0 : startResults s = some (r0, flag)) (h1 : s.combinedRanges.length = 1) (hT : 1 / 31622 ≤ T) (hσ : Chooses 1 σ)
    {n : Nat} (hn : 8195 ≤ n) (h8 : ranges.length ≤ 8) (hws : WholeShares ranges b d) {dd : List WHand}
    (hD : deals (specRanges ranges) (maskCards b ++ maskCards d) = [dd]) (hw : 0 < Spec.dealWeight dd) (h53 : 4096 * Spec.dealWeight dd ≤ 2 ^ 53)
    {p : Nat} (hp : p < ranges.length)
    (h01 : ∀ B ∈ Spec.boards (maskCards b) (maskCards d) dd, potShare p (dd, B) = 0 ∨ potShare p (dd, B) = 1)
    (hhalf : 2 * (Spec.boards (maskCards b) (maskCards d) dd).countP (fun B => decide (potShare p (dd, B) = 1)) =
      (Spec.boards (maskCards b) (maskCards d) dd).length) :
    ENNReal.ofReal (63 / 64) ≤ expect (adaptive devF prog T s 1 σ n [] (McWorld.init s r0 cancelled)) fun w =>
      if AllDone 1 w ∧ ∃ q, (finishResultsF s flag w.shared.results).equities[p]? = some (some q) ∧ 1 / 4096 ≤ |q - 1 / 2| then 1 else 0 := by
  have hdd : dd ∈ deals (specRanges ranges) (maskCards b ++ maskCards d) := by rw [hD]; simp
  have hne : deals (specRanges ranges) (maskCards b ++ maskCards d) ≠ [] := List.ne_nil_of_mem hdd
  have key := C93_equity (prog := prog) (cancelled := cancelled) h hr0 hT hσ (n := n) (by omega) one_pos h8 hws (wmax := Spec.dealWeight dd)
    (fun d' hd' => by
      rw [hD, List.mem_singleton] at hd'
      rw [hd']
      exact ⟨hw, le_rfl⟩) (by omega) hp fun q => 1 / 4096 ≤ |q - 1 / 2|
  refine le_trans ?_ key
  rw [C92_single h h1, tsub_zero, one_pow, one_mul]
  refine h.runSpace_le hne 1 _ fun ts hlen hts => ?_
  have hev := h.tracks_evaluate h1 ts hts
  rw [hlen] at hev
  have hb := C80_even one_pos hev hD hw h01 hhalf
  simp only [Nat.cast_one, mul_one] at hb
  generalize hc : List.countP (fun sd => decide (|equityIn sd p - 1 / 2| < 1 / 4096)) (outcomes (maskCards b) (maskCards d) (tracks s b d ts)) = c at hb
  have h64 : 64 * c ≤ (outcomes (maskCards b) (maskCards d) (tracks s b d ts)).length := by
    by_contra hlt
    push Not at hlt
    nlinarith
  have hon : outcomes (maskCards b) (maskCards d) (tracks s b d ts) ≠ [] := by
    unfold outcomes
    rw [← List.length_pos_iff, choices_length]
    refine List.prod_pos fun a ha => ?_
    obtain ⟨l, hl, rfl⟩ := List.mem_map.1 ha
    obtain ⟨dd, hdd, rfl⟩ := List.mem_map.1 hl
    rw [List.length_map, List.length_pos_iff]
    exact h.boards_ne (hev.mem.2 dd hdd)
  have f1 : fl (1 / 2 + 1 / 4096) = 1 / 2 + 1 / 4096 := by decide +kernel
  have f2 : fl (1 / 2 - 1 / 4096) = 1 / 2 - 1 / 4096 := by decide +kernel
  refine le_trans (le_of_eq ?_) (average_within hon (Q := fun sd => |equityIn sd p - 1 / 2| < 1 / 4096) (x := 1 / 64) (fun sd _ hq => ?_) ?_)
  · congr 1; norm_num
  · rw [not_lt, le_abs] at hq
    rw [le_abs]
    rcases hq with hq | hq
    · have := fl_mono (x := 1 / 2 + 1 / 4096) (y := equityIn sd p) (by norm_num) (by linarith)
      rw [f1] at this
      left; linarith
    · have := fl_mono (y := 1 / 2 - 1 / 4096) (equityIn_range sd p).1 (by linarith)
      rw [f2] at this
      right; linarith
  · have h64Q : (64 * c : ℚ) ≤ (outcomes (maskCards b) (maskCards d) (tracks s b d ts)).length := by exact_mod_cast h64
    have : (List.countP (fun sd => decide (|equityIn sd p - 1 / 2| < 1 / 4096)) (outcomes (maskCards b) (maskCards d) (tracks s b d ts)) : ℚ) = c := by
      rw [← hc]
    refine le_trans (le_of_eq ?_) (show (c : ℚ) ≤ _ by linarith)
    rw [← this]

open Classical in
/-- The hypotheses are met: threes against ten and five of diamonds.  One thread is off by less than five percent with a probability of at least 97
percent, and by `1 / 4096` or more with one of at least 63 in 64. -/
theorem C93_even : (∃ s r0 flag, McReady evenRanges evenBoard 0 s ∧ startResults s = some (r0, flag)) ∧
    ∀ (prog : Option ℚ → Nat) (cancelled : Bool) (T : ℚ) (s : Sim) (r0 : Results) (flag : Nat) (σ : List McWorld → Bool × Nat) (n : Nat), McReady evenRanges evenBoard 0 s →
      startResults s = some (r0, flag) → 1 / 31622 ≤ T → Chooses 1 σ → 8195 ≤ n →
      ENNReal.ofReal (97 / 100) ≤ (expect (adaptive devF prog T s 1 σ n [] (McWorld.init s r0 cancelled)) fun w =>
        if AllDone 1 w ∧ Within (finishResultsF s flag w.shared.results) 0 (1 / 2) (1 / 20 + 1 / 2 ^ 53) then 1 else 0) ∧
      ENNReal.ofReal (63 / 64) ≤ expect (adaptive devF prog T s 1 σ n [] (McWorld.init s r0 cancelled)) fun w =>
        if AllDone 1 w ∧ ∃ q, (finishResultsF s flag w.shared.results).equities[0]? = some (some q) ∧ 1 / 4096 ≤ |q - 1 / 2| then 1 else 0 := by
  have hwf := even_wf
  have hb := even_deck
  have hs := even_single
  have h8 : evenRanges.length ≤ 8 := by decide
  have h0 : 0 < evenRanges.length := by decide
  have hv : validate evenRanges.length evenBoard 0 = none := by decide +kernel
  have hD := even_deals
  have hw : Spec.dealWeight [⟨4, 5, 100⟩, ⟨15, 35, 100⟩] = 10000 := by decide
  have hF := even_facts
  have hWh := even_whole
  generalize evenRanges = rs at *
  generalize evenBoard = bd at *
  generalize ([⟨4, 5, 100⟩, ⟨15, 35, 100⟩] : List WHand) = dd at *
  refine ⟨ready_of_deal hwf hb zero_deck hv (by rw [hD]; simp), fun prog cancelled T s r0 flag σ n h hr0 hT hσ hn => ⟨?_, ?_⟩⟩
  · refine le_trans (ENNReal.ofReal_le_ofReal ?_) (C93_hands (prog := prog) (cancelled := cancelled) h hr0 (by rw [h.crs_length, hs]) hT hσ (n := n) (by omega) one_pos h8 hWh hD
      (by rw [hw]; decide) (by rw [hw]; decide) h0 hF.2.2.2.2 (ε := 1 / 20) (by norm_num))
    norm_num
  · exact C93_missed h hr0 (by rw [h.crs_length, hs]) hT hσ hn h8 hWh hD (by rw [hw]; decide) (by rw [hw]; decide) h0 hF.2.2.1 (by rw [hF.1, hF.2.1])

end Pokers
