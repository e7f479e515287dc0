import Verif.Proofs.FloatStop
import Verif.Props.Stopping
/-!
# When the simulation stops, with the numbers of the program (C70)

C52 and C53 are about the model with exact arithmetic and an arbitrary square root.  Here every operation of `update_results`, including
the square root, the division and the progress value, is rounded as the processor does, and `NaN` is possible.
-/
namespace Pokers
open Spec CombinedRange

variable {prog : Option ℚ → Nat} {T : ℚ} {ranges : List (List Combo)} {b d nT : Nat} {cancelled : Bool}

/-- The run behind a result. -/
theorem approx_worldF {dev : ℚ → ℚ → Option ℚ} {r : Results} {sent : List Nat} (hwf : ∀ r ∈ ranges, WfRange r) (hb : CardMask b) (hd : CardMask d)
    (h : ApproxEquityF dev prog ranges b d nT T cancelled (.ok r) sent) :
    ∃ s r0 flag w, McReady ranges b d s ∧ startResults s = some (r0, flag) ∧
      McStepsF dev prog T s nT (McWorld.init s r0 cancelled) w ∧ (∀ t < nT, (w.locals t).pc = .done) ∧
      r = finishResultsF s flag w.shared.results ∧ sent = w.shared.sent := by
  obtain ⟨p, hp, h⟩ := h
  cases p with
  | error e => cases h.1
  | ok s =>
    obtain ⟨r0, flag, w, h1, h2, h3, h4, h5⟩ := h
    injection h4 with h4
    exact ⟨s, r0, flag, w, ⟨hwf, hb, hd, hp⟩, h1, h2, h3, h4, h5⟩

theorem finishResultsF_stdev (s : Sim) (flag : Nat) (r : Results) :
    (finishResultsF s flag r).stdev = r.stdev ∧ (finishResultsF s flag r).evalCount = r.evalCount := by
  unfold finishResultsF
  simp only
  have h : ∀ r : Results, (generateFinalDataF s.nPlayers (getEquityF s.nPlayers r)).stdev = r.stdev ∧
    (generateFinalDataF s.nPlayers (getEquityF s.nPlayers r)).evalCount = r.evalCount := fun r => ⟨rfl, rfl⟩
  split
  · exact h _
  · exact h _

/-! ## The square root and the progress -/

/-- C70: the square root of the model is the `f64` number nearest to the real square root, and not a number for negative arguments. -/
theorem C70_sqrt (v : ℚ) : (v < 0 → fsqrt v = none) ∧
    (0 ≤ v → ∃ x, fsqrt v = some x ∧ IsF64 x ∧ ∀ y, IsF64 y → |(x : ℝ) - √(v : ℝ)| ≤ |(y : ℝ) - √(v : ℝ)|) := by
  constructor
  · intro h
    unfold fsqrt
    rw [if_pos h]
  · intro h
    have e : fsqrt v = some (sqrtRound v * sqrtUlp v) := by unfold fsqrt; rw [if_neg (not_lt.2 h)]
    exact ⟨_, e, fsqrt_isF64 e, fun y hy => fsqrt_nearest e hy⟩

example : fsqrt 4 = some 2 ∧ fsqrt (1 / 4) = some (1 / 2) ∧ fsqrt 0 = some 0 ∧ fsqrt (-1) = none ∧
    fsqrt 2 = some (6369051672525773 / 2 ^ 52) := by decide +kernel

theorem fl_hundred : fl 100 = 100 := fl_of_isF64 ⟨100, 0, by norm_num, by norm_num, by norm_num⟩

theorem castU8_ge {x : ℚ} {k : Nat} (hk : k ≤ 255) (h : k ≤ x) : k ≤ castU8 x := by
  unfold castU8
  have h1 : (k : ℤ) ≤ ⌊x⌋ := Int.le_floor.2 (by exact_mod_cast h)
  omega

theorem castU8_le {x : ℚ} {k : Nat} (h : x ≤ k) : castU8 x ≤ k := by
  unfold castU8
  have h1 : ⌊x⌋ ≤ (k : ℤ) := by
    have : ⌊x⌋ ≤ ⌊(k : ℚ)⌋ := Int.floor_le_floor h
    simpa using this
  omega

/-- C70: the progress of a deviation that has reached the target is at least 100 and at most 255; a progress of more than 100 is only
reported for deviations below the target; and `NaN` is reported as 0. -/
theorem C70_progress_value {x : ℚ} (hT : 0 < T) (hx : 0 ≤ x) :
    (x ≤ T → 100 ≤ progF T (some x)) ∧ (100 < progF T (some x) → x < T) ∧ progF T (some x) ≤ 255 ∧ progF T none = 0 := by
  have h0 : 0 ≤ x / T := by positivity
  have hq0 := fl_nonneg h0
  have hs0 : 0 ≤ fl (fl (x / T) * fl (x / T)) := fl_nonneg (by positivity)
  refine ⟨fun h => ?_, fun h => ?_, ?_, rfl⟩
  · unfold progF
    simp only
    split
    · omega
    · rename_i hne
      have hq : fl (x / T) ≤ 1 := fl_one ▸ fl_mono h0 (by rw [div_le_one hT]; exact h)
      have hs : fl (fl (x / T) * fl (x / T)) ≤ 1 := by
        have : fl (x / T) * fl (x / T) ≤ 1 := by nlinarith
        exact fl_one ▸ fl_mono (by positivity) this
      have hi : 1 ≤ fl (1 / fl (fl (x / T) * fl (x / T))) := by
        have hp : 0 < fl (fl (x / T) * fl (x / T)) := lt_of_le_of_ne hs0 (Ne.symm hne)
        have : 1 ≤ 1 / fl (fl (x / T) * fl (x / T)) := by rw [le_div_iff₀ hp]; linarith
        calc (1 : ℚ) = fl 1 := fl_one.symm
          _ ≤ _ := fl_mono (by norm_num) this
      apply castU8_ge (by omega)
      calc ((100 : Nat) : ℚ) = fl 100 := by rw [fl_hundred]; norm_num
        _ ≤ _ := fl_mono (by norm_num) (by linarith)
  · by_contra hcon
    push Not at hcon
    have hq : 1 ≤ fl (x / T) := by
      calc (1 : ℚ) = fl 1 := fl_one.symm
        _ ≤ _ := fl_mono (by norm_num) (by rw [le_div_iff₀ hT]; linarith)
    have hs : 1 ≤ fl (fl (x / T) * fl (x / T)) := by
      calc (1 : ℚ) = fl 1 := fl_one.symm
        _ ≤ _ := fl_mono (by norm_num) (by nlinarith)
    have hi0 : 0 ≤ 1 / fl (fl (x / T) * fl (x / T)) := by positivity
    have hi : fl (1 / fl (fl (x / T) * fl (x / T))) ≤ 1 := by
      calc _ ≤ fl 1 := fl_mono hi0 (by rw [div_le_one (by linarith)]; exact hs)
        _ = 1 := fl_one
    have hf : fl (fl (1 / fl (fl (x / T) * fl (x / T))) * 100) ≤ ((100 : Nat) : ℚ) := by
      have := fl_mono (mul_nonneg (fl_nonneg hi0) (by norm_num : (0 : ℚ) ≤ 100)) (show _ ≤ (100 : ℚ) by linarith)
      rw [fl_hundred] at this
      exact_mod_cast this
    have := castU8_le hf
    unfold progF at h
    simp only at h
    rw [if_neg (by linarith)] at h
    omega
  · unfold progF
    simp only
    split
    · omega
    · unfold castU8
      omega

example : progF (1 / 100) (some (1 / 50)) = 25 ∧ progF (1 / 100) (some (1 / 100)) = 100 ∧ progF (1 / 100) (some (1 / 1000)) = 255 ∧
    progF (1 / 100) (some 0) = 255 := by decide +kernel

/-! ## One batch -/

/-- C70: with a single combined range and a target of at least `1 / 31622`, which is `3.162e-5`, `approx_equity` evaluates exactly one
batch of 4096 showdowns per thread. -/
theorem C70_one_batch {r : Results} {sent : List Nat} (hwf : ∀ r ∈ ranges, WfRange r) (hb : CardMask b) (hd : CardMask d)
    (h1 : (fromRanges (ranges.map fun h => removeConflictingCombos h b d)).length = 1) (hT : 1 / 31622 ≤ T)
    (h : ApproxEquityF devF prog ranges b d nT T cancelled (.ok r) sent) : r.evalCount = 4096 * nT ∧ sent.length = 2 * nT := by
  obtain ⟨s, r0, flag, w, hr, hst, hs, hdone, rfl, rfl⟩ := approx_worldF hwf hb hd h
  obtain ⟨v, g1, g2, _⟩ := follow_one hr (by rw [hr.crs_length, h1]) hst hT hs
  have he : r0.evalCount = 0 := congrArg Prod.snd (startResults_counts hst).2.2.1
  have hdv : ∀ t < nT, (v.locals t).pc = .done := fun t ht => by rw [← (g2.locals t).pc]; exact hdone t ht
  obtain ⟨A, hA⟩ := oneBatch hr (by norm_num) he (start_noBatch hst) (single_dealt hr (by rw [hr.crs_length, h1]) g1)
  have hc := oneBatch_done hA hdv
  have hsc := (fworld hr hst hs).sent
  rw [doneCount_all hdone] at hsc
  have hec : w.shared.results.evalCount = 4096 * nT := by rw [← hc]; exact g2.shared.results.evals
  rw [(finishResultsF_stdev _ _ _).2]
  exact ⟨hec, by omega⟩

/-- C70: the first progress value is then 255 if the target is at least `1 / 19700`. -/
theorem C70_first_progress {r : Results} {sent : List Nat} (hwf : ∀ r ∈ ranges, WfRange r) (hb : CardMask b) (hd : CardMask d)
    (h1 : (fromRanges (ranges.map fun h => removeConflictingCombos h b d)).length = 1) (hT : 1 / 19700 ≤ T) (hn : 0 < nT)
    (h : ApproxEquityF devF (progF T) ranges b d nT T cancelled (.ok r) sent) : sent.head? = some 255 := by
  have hl := (C70_one_batch hwf hb hd h1 (le_trans (by norm_num) hT) h).2
  obtain ⟨s, r0, flag, w, hr, hst, hs, hdone, rfl, rfl⟩ := approx_worldF hwf hb hd h
  obtain ⟨v, g1, g2, g3⟩ := follow_one hr (by rw [hr.crs_length, h1]) hst (le_trans (by norm_num) hT) hs
  obtain ⟨r, x, hF, hh⟩ := g3.head (fun e => by rw [e] at hl; simp at hl; omega)
  rw [hh]
  congr 1
  obtain ⟨dd, hd1, hd2⟩ := first_devF (T := 5 / 8 * T) (by linarith) hF
  rw [hd1]
  have hTp : 0 < T := lt_of_lt_of_le (by norm_num) hT
  have hdd : 0 ≤ dd := by
    refine devF_nonneg ?_ hd1
    rw [hF.count]
    positivity
  have h0 : 0 ≤ dd / T := by positivity
  have hq0 := fl_nonneg h0
  have hs0 : 0 ≤ fl (fl (dd / T) * fl (dd / T)) := fl_nonneg (by positivity)
  refine le_antisymm (C70_progress_value hTp hdd).2.2.1 ?_
  unfold progF
  simp only
  split
  · exact le_rfl
  rename_i hne
  have e1 : fl (5 / 8) = 5 / 8 := fl_of_isF64 ⟨5, -3, by norm_num, by norm_num, by norm_num⟩
  have e2 : fl (25 / 64) = 25 / 64 := fl_of_isF64 ⟨25, -6, by norm_num, by norm_num, by norm_num⟩
  have e3 : fl (655 / 256) = 655 / 256 := fl_of_isF64 ⟨655, -8, by norm_num, by norm_num, by norm_num⟩
  have e4 : fl 255 = 255 := fl_of_isF64 ⟨255, 0, by norm_num, by norm_num, by norm_num⟩
  have hq : fl (dd / T) ≤ 5 / 8 := e1 ▸ fl_mono h0 (by rw [div_le_iff₀ hTp]; exact hd2.le)
  have hsq : fl (fl (dd / T) * fl (dd / T)) ≤ 25 / 64 := by
    have : fl (dd / T) * fl (dd / T) ≤ 25 / 64 := by nlinarith
    exact e2 ▸ fl_mono (by positivity) this
  have hi : 655 / 256 ≤ fl (1 / fl (fl (dd / T) * fl (dd / T))) := by
    have hp : 0 < fl (fl (dd / T) * fl (dd / T)) := lt_of_le_of_ne hs0 (Ne.symm hne)
    calc (655 / 256 : ℚ) = fl (655 / 256) := e3.symm
      _ ≤ _ := fl_mono (by norm_num) (by rw [le_div_iff₀ hp]; linarith)
  apply castU8_ge le_rfl
  calc ((255 : Nat) : ℚ) = fl 255 := by rw [e4]; norm_num
    _ ≤ _ := fl_mono (by norm_num) (by linarith)

/-! ## The reported deviation -/

/-- C70: the square of the reported deviation times the number of batches is, up to a rounding error of less than `4e-12` per batch, the
number computed from the exact estimates of the batches, among which there is a zero for each thread.  (For at most 1000 progress
values.) -/
theorem C70_reported {r : Results} {sent : List Nat} (hwf : ∀ r ∈ ranges, WfRange r) (hb : CardMask b) (hd : CardMask d) (hn : 0 < nT)
    (h : ApproxEquityF devF prog ranges b d nT T cancelled (.ok r) sent) (hlen : sent.length ≤ 1000) :
    ∃ es : List ℚ, es.length = sent.length ∧ (∀ e ∈ es, 0 ≤ e ∧ e ≤ 1) ∧ nT ≤ es.count 0 ∧ 0 < r.stdev ∧
      |(r.stdev * es.length) ^ 2 - (eps + (es.map fun e => e * e).sum - es.sum * es.sum / es.length)| ≤ es.length / 2 ^ 38 := by
  obtain ⟨s, r0, flag, w, hr, hst, hs, hdone, rfl, rfl⟩ := approx_worldF hwf hb hd h
  obtain ⟨es, xs, hrs⟩ := runStat hr hst hs hlen
  have hz := hrs.zeros
  rw [doneCount_all hdone] at hz
  have hl : 0 < es.length := by have := List.count_le_length (a := (0 : ℚ)) (l := es); omega
  obtain ⟨k1, k2⟩ := hrs.deviation hl (by rw [hrs.len]; exact hlen)
  rw [(finishResultsF_stdev _ _ _).1]
  exact ⟨es, hrs.len, hrs.mem, hz, k1, k2⟩

/-- C70: with one thread and one batch, the reported deviation is `√(e² / 2) / 2` up to rounding, where `e` is the estimate of the
equity: for a player who always wins it is 0.35. -/
theorem C70_reported_one {r : Results} {sent : List Nat} (hwf : ∀ r ∈ ranges, WfRange r) (hb : CardMask b) (hd : CardMask d)
    (h1 : (fromRanges (ranges.map fun h => removeConflictingCombos h b d)).length = 1) (hT : 1 / 31622 ≤ T)
    (h : ApproxEquityF devF prog ranges b d 1 T cancelled (.ok r) sent) :
    ∃ e, 0 ≤ e ∧ e ≤ 1 ∧ |(2 * r.stdev) ^ 2 - (eps + e * e / 2)| ≤ 1 / 2 ^ 37 := by
  have hsl := (C70_one_batch hwf hb hd h1 hT h).2
  obtain ⟨es, e1, e2, e3, _, e4⟩ := C70_reported hwf hb hd (by omega) h (by omega)
  rw [hsl] at e1
  have e1' : es.length = 2 := e1
  rw [e1'] at e4
  have key : ∃ e, (0 ≤ e ∧ e ≤ 1) ∧ (es.map fun e => e * e).sum = e * e ∧ es.sum = e := by
    match es, e1', e2, e3 with
    | [x, y], _, e2, e3 =>
      by_cases hx : x = 0
      · exact ⟨y, e2 y (by simp), by simp [hx], by simp [hx]⟩
      · by_cases hy : y = 0
        · exact ⟨x, e2 x (by simp), by simp [hy], by simp [hy]⟩
        · rw [List.count_cons_of_ne hx, List.count_cons_of_ne hy] at e3
          simp at e3
  obtain ⟨e, hm, k1, k2⟩ := key
  rw [k1, k2] at e4
  refine ⟨e, hm.1, hm.2, ?_⟩
  have a1 : (2 * r.stdev) ^ 2 - (eps + e * e / 2) = (r.stdev * ((2 : Nat) : ℚ)) ^ 2 - (eps + e * e - e * e / ((2 : Nat) : ℚ)) := by
    push_cast
    ring
  rw [a1]
  refine e4.trans ?_
  norm_num

/-! ## It stops -/

/-- C70: for a target of at least `2 ^ -20`, the number of evaluations is bounded by the target and the number of threads, which is a
`u8`, for all random values and schedules.  In particular `NaN` never keeps the threads running. -/
theorem C70_evaluations {r : Results} {sent : List Nat} (hwf : ∀ r ∈ ranges, WfRange r) (hb : CardMask b) (hd : CardMask d)
    (hT : 1 / 2 ^ 20 ≤ T) (hnT : nT ≤ 255) (h : ApproxEquityF devF prog ranges b d nT T cancelled (.ok r) sent) :
    r.evalCount ≤ 4096 * (⌊1 / (3 * T ^ 2)⌋₊ + 1 + nT) := by
  obtain ⟨s, r0, flag, w, hr, hst, hs, hdone, rfl, rfl⟩ := approx_worldF hwf hb hd h
  obtain ⟨xs, hx⟩ := eval_boundF hr hst hT hnT rfl hs
  rw [(finishResultsF_stdev _ _ _).2]
  have := hx.all
  have := leavingCount_le w nT
  omega

/-- C70: likewise the number of steps of all threads together. -/
theorem C70_steps {s : Sim} {r0 : Results} {flag : Nat} (hr : McReady ranges b d s) (hst : startResults s = some (r0, flag))
    (hT : 1 / 2 ^ 20 ≤ T) (hnT : nT ≤ 255) {k : Nat} {w : McWorld} (hs : McCountF devF prog T s nT (McWorld.init s r0 cancelled) k w) :
    k ≤ 20480 * (⌊1 / (3 * T ^ 2)⌋₊ + 1 + nT) + 20484 * nT := step_boundF hr hst hT hnT hs

/-- C70: every reachable state is on a run that is completed. -/
theorem C70_completes {s : Sim} {r0 : Results} {flag : Nat} (hr : McReady ranges b d s) (hst : startResults s = some (r0, flag))
    (hT : 1 / 2 ^ 20 ≤ T) (hnT : nT ≤ 255) {w : McWorld} (hs : McStepsF devF prog T s nT (McWorld.init s r0 cancelled) w) :
    ∃ v, McStepsF devF prog T s nT w v ∧ ∀ t < nT, (v.locals t).pc = .done := completesF hr hst hT hnT hs

/-- C70: with a target that is not positive, a single combined range and nobody cancelling, no thread ever finishes, even if the
deviation becomes `NaN`. -/
theorem C70_never {s : Sim} {r0 : Results} {flag : Nat} (hr : McReady ranges b d s) (hst : startResults s = some (r0, flag))
    (h1 : (fromRanges (ranges.map fun h => removeConflictingCombos h b d)).length = 1) (hT : T ≤ 0)
    {w : McWorld} (hs : ThreadStepsF devF prog T s nT (McWorld.init s r0 false) w) : ∀ t < nT, (w.locals t).pc ≠ .done :=
  fun t ht => ((never_leavesF hr (by rw [hr.crs_length, h1]) hst
    (fun _ _ _ hc hx => hT.trans (devF_nonneg hc hx)) hs).2.2 t ht).2

/-! ## Examples -/

/-- Aces against kings on a flop: there are completed runs for all targets from `2 ^ -20` on. -/
theorem two_approxF (hT : 1 / 2 ^ 20 ≤ T) (hnT : nT ≤ 255) : ∃ r sent, ApproxEquityF devF prog twoHands flopMask 0 nT T false (.ok r) sent := by
  obtain ⟨s, r0, flag, hr, hst⟩ := two_start
  obtain ⟨v, h1, h2⟩ := C70_completes (cancelled := false) (prog := prog) hr hst hT hnT .refl
  exact ⟨_, _, _, hr.ok, r0, flag, v, hst, h1, h2, rfl, rfl⟩

/-- With a target of one percent and three threads they take 12288 evaluations, … -/
example : ∃ r sent, ApproxEquityF devF (progF (1 / 100)) twoHands flopMask 0 3 (1 / 100) false (.ok r) sent ∧ r.evalCount = 12288 ∧
    sent.length = 6 ∧ sent.head? = some 255 ∧ ∃ es : List ℚ, es.length = 6 ∧ 3 ≤ es.count 0 ∧
      |(r.stdev * 6) ^ 2 - (eps + (es.map fun e => e * e).sum - es.sum * es.sum / 6)| ≤ 6 / 2 ^ 38 := by
  obtain ⟨s, hs⟩ := two_ready
  obtain ⟨r, sent, h⟩ := two_approxF (prog := progF (1 / 100)) (T := 1 / 100) (nT := 3) (by norm_num) (by norm_num)
  obtain ⟨h1, h2⟩ := C70_one_batch hs.wf hs.boardMask hs.deadMask two_single (by norm_num) h
  obtain ⟨es, k1, _, k2, _, k3⟩ := C70_reported hs.wf hs.boardMask hs.deadMask (by norm_num) h (by omega)
  rw [k1, h2] at k3
  exact ⟨r, sent, h, h1, h2, C70_first_progress hs.wf hs.boardMask hs.deadMask two_single (by norm_num) (by norm_num) h,
    es, by omega, k2, by exact_mod_cast k3⟩

/-- … with one of `1e-5` at most `1.4e13`, … -/
example : ∃ r sent, ApproxEquityF devF (progF (1 / 100000)) twoHands flopMask 0 2 (1 / 100000) false (.ok r) sent ∧
    r.evalCount ≤ 4096 * (3333333333 + 1 + 2) := by
  obtain ⟨s, hs⟩ := two_ready
  obtain ⟨r, sent, h⟩ := two_approxF (prog := progF (1 / 100000)) (T := 1 / 100000) (nT := 2) (by norm_num) (by norm_num)
  have := C70_evaluations hs.wf hs.boardMask hs.deadMask (by norm_num) (by norm_num) h
  have e : ⌊1 / (3 * (1 / 100000 : ℚ) ^ 2)⌋₊ = 3333333333 := by rw [Nat.floor_eq_iff (by norm_num)]; norm_num
  rw [e] at this
  exact ⟨r, sent, h, this⟩

/-- … and with a target of zero there is no end. -/
example : ∃ s r0 flag, McReady twoHands flopMask 0 s ∧ startResults s = some (r0, flag) ∧
    ∀ w, ThreadStepsF devF (progF 0) 0 s 4 (McWorld.init s r0 false) w → ∀ t < 4, (w.locals t).pc ≠ .done := by
  obtain ⟨s, r0, flag, hr, hst⟩ := two_start
  exact ⟨s, r0, flag, hr, hst, fun w hw => C70_never hr hst two_single le_rfl hw⟩

end Pokers
