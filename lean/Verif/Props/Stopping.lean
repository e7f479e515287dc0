import Verif.Proofs.McBound
import Verif.Props.MonteCarlo
/-!
# When the random simulation stops (C52, C53)
-/
namespace Pokers
open Spec CombinedRange

variable {sqrt : ℚ → ℚ} {target : ℚ} {ranges : List (List Combo)} {b d nT : Nat} {cancelled : Bool}

/-- The run behind a result of `approx_equity`. -/
theorem approx_world {r : Results} {sent : List Nat} (hwf : ∀ r ∈ ranges, WfRange r) (hb : CardMask b) (hd : CardMask d)
    (h : ApproxEquity sqrt ranges b d nT target cancelled (.ok r) sent) :
    ∃ s r0 flag w, McReady ranges b d s ∧ startResults s = some (r0, flag) ∧ r0.evalCount = 0 ∧
      McSteps sqrt target s nT (McWorld.init s r0 cancelled) w ∧ (∀ t < nT, (w.locals t).pc = .done) ∧
      r = finishResults s flag w.shared.results ∧ sent = w.shared.sent := by
  obtain ⟨p, hp, h⟩ := h
  cases p with
  | error e => cases h.1
  | ok s =>
    obtain ⟨r0, flag, w, h1, h2, h3, h4, h5⟩ := h
    injection h4 with h4
    exact ⟨s, r0, flag, w, ⟨hwf, hb, hd, hp⟩, h1, congrArg Prod.snd (startResults_counts h1).2.2.1, h2, h3, h4, h5⟩

/-- The number of combined ranges does not depend on their order. -/
theorem McReady.crs_length {s : Sim} (h : McReady ranges b d s) :
    s.combinedRanges.length = (fromRanges (ranges.map fun h => removeConflictingCombos h b d)).length := by
  obtain ⟨s0, h1, h2, _⟩ := h.exact
  rw [← h2.length_eq, (prepareExact_ok h1).sim]
  rfl

theorem finishResults_stdev (s : Sim) (flag : Nat) (r : Results) : (finishResults s flag r).stdev = r.stdev := by
  unfold finishResults
  simp only
  have h : ∀ r : Results, (generateFinalData s.nPlayers (getEquity s.nPlayers r)).stdev = r.stdev := fun r => rfl
  split
  · exact h _
  · exact h _

/-! ## C52 -/

/-- C52: the deviation computed after the first batch is `sqrt 1e-9`, whatever the batch contains. -/
theorem C52_first_stdev {s : Sim} {r0 : Results} {flag : Nat} (h : startResults s = some (r0, flag)) (n : Nat) (bt : Batch)
    (hb : HandStats) : (updateResults sqrt n false bt hb r0).stdev = sqrt eps :=
  (first_stdev (start_noBatch h) n bt hb).1

/-- C52: with a target above `sqrt 1e-9` and a single combined range, `approx_equity` evaluates exactly one batch of 4096 showdowns per
thread, for all random values and schedules and however far the estimate is from the equity. -/
theorem C52_one_batch {r : Results} {sent : List Nat} (hwf : ∀ r ∈ ranges, WfRange r) (hb : CardMask b) (hd : CardMask d)
    (h1 : (fromRanges (ranges.map fun h => removeConflictingCombos h b d)).length = 1) (hsq : sqrt eps < target)
    (h : ApproxEquity sqrt ranges b d nT target cancelled (.ok r) sent) : r.evalCount = 4096 * nT ∧ sent.length = 2 * nT := by
  obtain ⟨s, r0, flag, w, hr, hst, he, hs, hd, rfl, rfl⟩ := approx_world hwf hb hd h
  obtain ⟨A, hA⟩ := oneBatch hr hsq he (start_noBatch hst) (single_dealt hr (by rw [hr.crs_length, h1]) hs)
  have hc := oneBatch_done hA hd
  have hsc := sent_count hr he hs
  rw [doneCount_all hd] at hsc
  exact ⟨by rw [(finishResults_counts _ _ _).2.2.2.1, hc], by omega⟩

/-- C52: with more combined ranges the same holds of every run in which no thread gives up dealing the first hands (which takes 1000
failures in a row). -/
theorem C52_one_batch_dealt {s : Sim} {r0 : Results} {flag : Nat} (hr : McReady ranges b d s) (hst : startResults s = some (r0, flag))
    (hsq : sqrt eps < target) {w : McWorld} (hs : DealtSteps sqrt target s nT (McWorld.init s r0 cancelled) w)
    (hd : ∀ t < nT, (w.locals t).pc = .done) : w.shared.results.evalCount = 4096 * nT := by
  obtain ⟨A, hA⟩ := oneBatch hr hsq (congrArg Prod.snd (startResults_counts hst).2.2.1) (start_noBatch hst) hs
  exact oneBatch_done hA hd

/-- C52: with one thread, whatever the ranges, there is one batch of 4096 evaluations or none. -/
theorem C52_one_thread {r : Results} {sent : List Nat} (hwf : ∀ r ∈ ranges, WfRange r) (hb : CardMask b) (hd : CardMask d)
    (hsq : sqrt eps < target) (h : ApproxEquity sqrt ranges b d 1 target cancelled (.ok r) sent) :
    r.evalCount = 4096 ∨ r.evalCount = 0 := by
  obtain ⟨s, r0, flag, w, hr, hst, he, hs, hd, rfl, rfl⟩ := approx_world hwf hb hd h
  rw [(finishResults_counts _ _ _).2.2.2.1]
  have key : ∀ v, McSteps sqrt target s 1 (McWorld.init s r0 cancelled) v → DealtSteps sqrt target s 1 (McWorld.init s r0 cancelled) v ∨
      (v.shared.results.evalCount = 0 ∧ ((v.locals 0).pc = .final ∨ (v.locals 0).pc = .done)) := by
    intro v hv
    induction hv with
    | refl => exact Or.inl .refl
    | @step u v hsteps hstep ih =>
      rcases ih with ih | ⟨i1, i2⟩
      · by_cases hg : (u.locals 0).pc = .start ∧ (v.locals 0).pc = .final
        · refine Or.inr ⟨?_, Or.inl hg.2⟩
          obtain ⟨A, hA⟩ := oneBatch hr hsq he (start_noBatch hst) ih
          have hn : 0 ∉ A := fun hm => by
            have := hA.after 0 (by omega) hm
            rw [hg.1] at this
            rcases this with h | h | h <;> cases h
          have hA0 : A = ∅ := by
            rw [Finset.eq_empty_iff_forall_notMem]
            intro t ht
            have := hA.sub t ht
            have e : t = 0 := by omega
            exact hn (e ▸ ht)
          have h0 := hA.count
          rw [hA0, Finset.card_empty] at h0
          cases hstep with
          | cancel => exact h0
          | thread t ht hpc ds l g hm =>
            have e : t = 0 := by omega
            subst e
            have := mcStep_effect hm
            unfold StepEffect at this
            rw [hg.1] at this
            show g.results.evalCount = 0
            rw [this.1]; exact h0
        · refine Or.inl (.step ih hstep fun t ht hp hf => hg ?_)
          have e : t = 0 := by omega
          exact e ▸ ⟨hp, hf⟩
      · right
        obtain ⟨hist, Dr, Dl, hi⟩ := McInv.steps hr hsteps
        have hc := hi.evalCount (t := 0) (by omega)
        cases hstep with
        | cancel => exact ⟨i1, i2⟩
        | thread t ht hpc ds l g hm =>
          have e : t = 0 := by omega
          subst e
          have := mcStep_effect hm
          unfold StepEffect at this
          rcases i2 with i2 | i2
          · rw [i2] at this hc
            change (u.locals 0).stats.evalCount = 0 at hc
            simp only [Function.update_self]
            refine ⟨?_, Or.inr (by rw [this.2])⟩
            rw [this.1, update_evalCount, i1, hc]
          · exact absurd i2 hpc.1
  rcases key w hs with h | h
  · obtain ⟨A, hA⟩ := oneBatch hr hsq he (start_noBatch hst) h
    exact Or.inl (oneBatch_done hA hd)
  · exact Or.inr h.1

/-- C52: the first progress value is then that of the deviation `sqrt 1e-9`; for a target 1.6 times as large it is 255, which is
no percentage. -/
theorem C52_progress {r : Results} {sent : List Nat} (hwf : ∀ r ∈ ranges, WfRange r) (hb : CardMask b) (hd : CardMask d)
    (h1 : (fromRanges (ranges.map fun h => removeConflictingCombos h b d)).length = 1) (h0 : 0 < sqrt eps)
    (hsq : 8 / 5 * sqrt eps ≤ target) (hn : 0 < nT) (h : ApproxEquity sqrt ranges b d nT target cancelled (.ok r) sent) :
    sent.head? = some 255 := by
  obtain ⟨s, r0, flag, w, hr, hst, he, hs, hd, rfl, rfl⟩ := approx_world hwf hb hd h
  obtain ⟨A, hA⟩ := oneBatch hr (by linarith) he (start_noBatch hst) (single_dealt hr (by rw [hr.crs_length, h1]) hs)
  have hc := oneBatch_done hA hd
  have hne : A ≠ ∅ := fun e => by
    have := hA.count
    rw [e, Finset.card_empty] at this
    omega
  rw [(hA.stop hne).2]
  congr 1
  unfold progressApprox
  rw [if_neg (fun h => absurd h.1 h0.ne')]
  unfold castU8
  have ht : 0 < target := by linarith
  have hlow : (255 : ℚ) ≤ 1 / (sqrt eps / target) ^ 2 * 100 := by
    have e : 1 / (sqrt eps / target) ^ 2 * 100 = 100 * (target / sqrt eps) ^ 2 := by field_simp
    rw [e]
    have : 8 / 5 ≤ target / sqrt eps := by rw [le_div_iff₀ h0]; exact hsq
    nlinarith
  have : (255 : ℤ) ≤ ⌊1 / (sqrt eps / target) ^ 2 * 100⌋ := Int.le_floor.2 (by exact_mod_cast hlow)
  rw [min_eq_right this]
  rfl

/-- The estimate of the equity of the first player from one batch, as computed by `update_results`. -/
def batchEstimate (n : Nat) (bt : Batch) : ℚ :=
  (∑ i ∈ Finset.range (2 ^ n), ((maskWins bt 0 i : ℚ) + maskTies bt 0 i)) / (((∑ i ∈ Finset.range (2 ^ n), bt.winsByMask i : Nat) : ℚ) + eps)

/-- The statistics of a list of estimates. -/
structure Batches (sqrt : ℚ → ℚ) (r : Results) (es : List ℚ) : Prop where
  sum : r.batchSum = es.sum
  sum2 : r.batchSum2 = (es.map fun e => e * e).sum
  count : r.batchCount = es.length
  stdev : es ≠ [] → r.stdev = sqrt (eps + (es.map fun e => e * e).sum - es.sum * es.sum / es.length) / es.length

theorem Batches.snoc {r r' : Results} {es : List ℚ} (h : Batches sqrt r es) {e : ℚ} (h1 : r'.batchSum = r.batchSum + e)
    (h2 : r'.batchSum2 = r.batchSum2 + e * e) (h3 : r'.batchCount = r.batchCount + 1)
    (h4 : r'.stdev = sqrt (eps + r'.batchSum2 - r'.batchSum * r'.batchSum / r'.batchCount) / r'.batchCount) :
    Batches sqrt r' (es ++ [e]) := by
  have e1 : r'.batchSum = (es ++ [e]).sum := by rw [h1, h.sum]; simp
  have e2 : r'.batchSum2 = ((es ++ [e]).map fun e => e * e).sum := by rw [h2, h.sum2]; simp
  have e3 : r'.batchCount = ((es ++ [e]).length : ℚ) := by rw [h3, h.count]; simp
  exact ⟨e1, e2, e3, fun _ => by rw [h4, e1, e2, e3]⟩

theorem Batches.update {n : Nat} (hn : 0 < n) {r : Results} {es : List ℚ} (h : Batches sqrt r es) {bt : Batch} (hid : IdPlayers n bt)
    (hb : HandStats) : Batches sqrt (updateResults sqrt n false bt hb r) (es ++ [batchEstimate n bt]) := by
  obtain ⟨_, _, _, _, _, h6, h7⟩ := mergeMasks_eq n bt hid ⟨r.wins, r.ties, r.winsByMask, 0, 0⟩
  have he : (mergeMasks n bt ⟨r.wins, r.ties, r.winsByMask, 0, 0⟩).batchEquity /
      (((mergeMasks n bt ⟨r.wins, r.ties, r.winsByMask, 0, 0⟩).batchHands : ℚ) + eps) = batchEstimate n bt := by
    rw [h6, h7 hn, batchEstimate]
    simp only [zero_add]
  rw [← he]
  unfold updateResults
  simp only [if_false, Bool.false_eq_true]
  generalize (mergeMasks n bt _).batchEquity / _ = e
  exact h.snoc rfl rfl rfl rfl

/-- The estimate of an empty batch. -/
theorem batchEstimate_init (n : Nat) : batchEstimate n (Batch.init n) = 0 := by
  have : ∀ i, (maskWins (Batch.init n) 0 i : ℚ) + maskTies (Batch.init n) 0 i = 0 := by
    intro i
    have h0 : (Batch.init n).winsByMask i = 0 := rfl
    unfold maskWins maskTies tieShare
    rw [h0]
    simp
  unfold batchEstimate
  simp [this]

/-- The statistics after any number of batches. -/
theorem applyFlushes_batches {n : Nat} (hn : 0 < n) {r0 : Results} (h0 : NoBatch r0) (hist : List (Batch × HandStats))
    (hid : ∀ x ∈ hist, IdPlayers n x.1) :
    Batches sqrt (applyFlushes sqrt n false hist r0) (hist.map fun x => batchEstimate n x.1) := by
  induction hist using List.reverseRecOn with
  | nil => exact ⟨h0.1, h0.2.1, h0.2.2.trans (by simp), fun h => absurd rfl h⟩
  | append_singleton hist x ih =>
    rw [applyFlushes_snoc, List.map_append]
    exact (ih fun y hy => hid y (List.mem_append_left _ hy)).update hn (hid x (by simp)) x.2

/-- If each element adds `c` or belongs to a zero, there are enough zeros. -/
theorem count_zero {α : Type} (c : Nat) (f : α → Nat) (g : α → ℚ) (L : List α) (h : ∀ x ∈ L, f x = c ∨ g x = 0) :
    c * L.length ≤ (L.map f).sum + c * (L.map g).count 0 := by
  induction L with
  | nil => simp
  | cons x L ih =>
    have h1 := ih fun y hy => h y (List.mem_cons_of_mem _ hy)
    rw [List.map_cons, List.map_cons, List.sum_cons, List.length_cons, Nat.mul_add]
    rcases h x (by simp) with h2 | h2
    · have h3 := Nat.mul_le_mul_left c (List.count_le_count_cons (a := (0 : ℚ)) (b := g x) (l := L.map g))
      rw [h2]
      omega
    · rw [h2, List.count_cons_self, Nat.mul_add]
      omega

theorem applyFlushes_evalCount (n : Nat) (L : List (Batch × HandStats)) (r : Results) :
    (applyFlushes sqrt n false L r).evalCount = r.evalCount + (L.map fun x => x.1.evalCount).sum := by
  induction L using List.reverseRecOn with
  | nil => rfl
  | append_singleton L x ih =>
    rw [applyFlushes_snoc, List.map_append, List.sum_append, ← Nat.add_assoc, ← ih]
    rfl

/-- C52: the deviation reported by `approx_equity` is computed from the estimates of the full batches and one estimate of zero for each
thread, which comes from the empty last batch of the thread. -/
theorem C52_reported {r : Results} {sent : List Nat} (hwf : ∀ r ∈ ranges, WfRange r) (hb : CardMask b) (hd : CardMask d) (hn : 0 < nT)
    (h : ApproxEquity sqrt ranges b d nT target cancelled (.ok r) sent) :
    ∃ es : List ℚ, es.length = sent.length ∧ (∀ e ∈ es, 0 ≤ e ∧ e ≤ 1) ∧ nT ≤ es.count 0 ∧
      r.stdev = sqrt (eps + (es.map fun e => e * e).sum - es.sum * es.sum / es.length) / es.length := by
  obtain ⟨s, r0, flag, w, hr, hst, he, hs, hd, rfl, rfl⟩ := approx_world hwf hb hd h
  have hp : 0 < s.nPlayers := by have := hr.fields; omega
  obtain ⟨hist, Dr, Dl, hi⟩ := McInv.steps hr hs
  have h4 := (applyFlushes_batches (sqrt := sqrt) hp (start_noBatch hst) hist hi.hids).stdev
  have hsc := sent_count hr he hs
  rw [doneCount_all hd] at hsc
  have hcnt := count_zero 4096 (fun x : Batch × HandStats => x.1.evalCount) (fun x => batchEstimate s.nPlayers x.1) hist (fun x hx => by
    rcases hi.hcount x hx with h | h
    · exact Or.inl h
    · exact Or.inr (by rw [h]; exact batchEstimate_init _))
  have hec := applyFlushes_evalCount (sqrt := sqrt) s.nPlayers hist r0
  rw [← hi.res, he] at hec
  have hsl := hi.sent
  refine ⟨hist.map fun x => batchEstimate s.nPlayers x.1, by rw [List.length_map, hsl], fun e hm => ?_, by omega, ?_⟩
  · obtain ⟨x, hx, rfl⟩ := List.mem_map.1 hm
    have := batch_equity_mem hp (hi.hids x hx) r0.wins r0.ties r0.winsByMask
    obtain ⟨_, _, _, _, _, h6, h7⟩ := mergeMasks_eq s.nPlayers x.1 (hi.hids x hx) ⟨r0.wins, r0.ties, r0.winsByMask, 0, 0⟩
    rw [h6, h7 hp] at this
    simp only [zero_add] at this
    exact this
  · rw [finishResults_stdev, hi.res]
    apply h4
    intro e
    rw [List.map_eq_nil_iff.1 e] at hsl
    rw [hsl] at hsc
    simp at hsc
    omega

/-- C52: with one thread and one batch, the reported deviation is `sqrt (1e-9 + e² / 2) / 2` where `e` is the estimate of the equity:
about 0.35 for a player who always wins, whose equity has no deviation at all. -/
theorem C52_reported_one {r : Results} {sent : List Nat} (hwf : ∀ r ∈ ranges, WfRange r) (hb : CardMask b) (hd : CardMask d)
    (h1 : (fromRanges (ranges.map fun h => removeConflictingCombos h b d)).length = 1) (hsq : sqrt eps < target)
    (h : ApproxEquity sqrt ranges b d 1 target cancelled (.ok r) sent) :
    ∃ e, 0 ≤ e ∧ e ≤ 1 ∧ r.stdev = sqrt (eps + e * e / 2) / 2 := by
  obtain ⟨es, e1, e2, e3, e4⟩ := C52_reported hwf hb hd (by omega) h
  rw [(C52_one_batch hwf hb hd h1 hsq h).2] at e1
  match es, e1, e2, e3, e4 with
  | [x, y], _, e2, e3, e4 =>
    have hz : x = 0 ∨ y = 0 := by
      by_contra hcon
      push Not at hcon
      rw [List.count_cons_of_ne (Ne.symm hcon.1.symm), List.count_cons_of_ne (Ne.symm hcon.2.symm)] at e3
      simp at e3
    rcases hz with rfl | rfl
    · refine ⟨y, (e2 y (by simp)).1, (e2 y (by simp)).2, ?_⟩
      rw [e4]
      simp only [List.map_cons, List.map_nil, List.sum_cons, List.sum_nil, List.length_cons, List.length_nil]
      push_cast
      congr 2
      ring
    · refine ⟨x, (e2 x (by simp)).1, (e2 x (by simp)).2, ?_⟩
      rw [e4]
      simp only [List.map_cons, List.map_nil, List.sum_cons, List.sum_nil, List.length_cons, List.length_nil]
      push_cast
      congr 2
      ring

/-- The hypotheses of the theorems on C52 can be met: aces against kings are one combined range, … -/
theorem two_single : (fromRanges (twoHands.map fun h => removeConflictingCombos h flopMask 0)).length = 1 := by decide +kernel

/-- … and there are runs, which take 12288 evaluations with three threads and a target of one percent, … -/
example : ∃ r sent, ApproxEquity (fun _ => 1 / 31622) twoHands flopMask 0 3 (1 / 100) false (.ok r) sent ∧ r.evalCount = 12288 ∧
    sent.length = 6 ∧ sent.head? = some 255 := by
  obtain ⟨s, hs⟩ := two_ready
  obtain ⟨r, sent, h, he⟩ := two_approx (fun _ => 1 / 31622) (1 / 100) 3 false
  exact ⟨r, sent, h, he, (C52_one_batch hs.wf hs.boardMask hs.deadMask two_single (by norm_num) h).2,
    C52_progress hs.wf hs.boardMask hs.deadMask two_single (by norm_num) (by norm_num) (by omega) h⟩

/-- … and with the target one millionth of a percent as well, for this bad `sqrt`, since nobody asks about the spread. -/
example : ∃ r sent, ApproxEquity (fun _ => 0) twoHands flopMask 0 1 (1 / 10 ^ 8) false (.ok r) sent ∧ r.evalCount = 4096 ∧
    ∃ e, 0 ≤ e ∧ e ≤ 1 ∧ r.stdev = (fun _ => 0) (eps + e * e / 2) / 2 := by
  obtain ⟨s, hs⟩ := two_ready
  obtain ⟨r, sent, h, he⟩ := two_approx (fun _ => 0) (1 / 10 ^ 8) 1 false
  exact ⟨r, sent, h, he, C52_reported_one hs.wf hs.boardMask hs.deadMask two_single (by norm_num) h⟩

/-! ## C53 -/

/-- C53: the number of evaluations is a multiple of 4096: each progress value stands for 4096 of them or for a finished thread. -/
theorem C53_multiple {r : Results} {sent : List Nat} (hwf : ∀ r ∈ ranges, WfRange r) (hb : CardMask b) (hd : CardMask d)
    (h : ApproxEquity sqrt ranges b d nT target cancelled (.ok r) sent) :
    nT ≤ sent.length ∧ r.evalCount = 4096 * (sent.length - nT) := by
  obtain ⟨s, r0, flag, w, hr, hst, he, hs, hd, rfl, rfl⟩ := approx_world hwf hb hd h
  have hsc := sent_count hr he hs
  rw [doneCount_all hd] at hsc
  rw [(finishResults_counts _ _ _).2.2.2.1]
  omega

/-- C53: the argument of the square root is never less than `1e-9` (up to rounding), whatever was evaluated: it is `1e-9` plus the
spread of the estimates, which is at most a quarter of their number. -/
theorem C53_radicand {s : Sim} {r0 : Results} {flag : Nat} (hr : McReady ranges b d s) (hst : startResults s = some (r0, flag))
    {w : McWorld} (hs : McSteps sqrt target s nT (McWorld.init s r0 cancelled) w) {t : Nat} (ht : t < nT) :
    let l := w.locals t
    let r := updateResults sqrt s.nPlayers false l.stats l.hands w.shared.results
    ∃ v, 0 ≤ v ∧ v ≤ r.batchCount / 4 ∧ r.stdev = sqrt (eps + v) / r.batchCount := by
  intro l r
  have hp : 0 < s.nPlayers := by have := hr.fields; omega
  obtain ⟨hist, Dr, Dl, hi⟩ := McInv.steps hr hs
  obtain ⟨h1, h2⟩ := (hi.stat hr (start_stat hst)).update (sqrt := sqrt) hp (hi.ids t ht) l.hands
  obtain ⟨s0, s1⟩ := h1.spread (by omega)
  refine ⟨_, s0, ?_, ?_⟩
  · rw [show r.batchCount = ((w.shared.sent.length + 1 : Nat) : ℚ) from h1.count]; exact s1
  · rw [show r.batchCount = ((w.shared.sent.length + 1 : Nat) : ℚ) from h1.count]
    push_cast
    exact h2

/-- C53: for a positive target the number of evaluations is bounded by the target and the number of threads, for all random values and
schedules.  It is enough that the square root is not too large by more than a factor of `√2`. -/
theorem C53_evaluations {r : Results} {sent : List Nat} (hwf : ∀ r ∈ ranges, WfRange r) (hb : CardMask b) (hd : CardMask d)
    (hsq : ∀ x, 0 ≤ x → sqrt x ^ 2 ≤ 2 * x) (ht : 0 < target) (h : ApproxEquity sqrt ranges b d nT target cancelled (.ok r) sent) :
    r.evalCount ≤ 4096 * (⌊1 / target ^ 2⌋₊ + 1 + nT) := by
  obtain ⟨s, r0, flag, w, hr, hst, he, hs, hd, rfl, rfl⟩ := approx_world hwf hb hd h
  rw [(finishResults_counts _ _ _).2.2.2.1]
  have := (eval_bound hr hsq ht (start_stat hst) he (Nat.lt_floor_add_one _) hs).2
  have := leavingCount_le w nT
  omega

/-- C53: for a positive target there is a bound on the number of steps of all threads together, for all random values and schedules:
there are no endless runs. -/
theorem C53_steps {s : Sim} {r0 : Results} {flag : Nat} (hr : McReady ranges b d s) (hst : startResults s = some (r0, flag))
    (hsq : ∀ x, 0 ≤ x → sqrt x ^ 2 ≤ 2 * x) (ht : 0 < target) {k : Nat} {w : McWorld}
    (hs : McCount sqrt target s nT (McWorld.init s r0 cancelled) k w) : k ≤ 20480 * (⌊1 / target ^ 2⌋₊ + 1 + nT) + 20484 * nT :=
  step_bound hr hsq ht (start_stat hst) (congrArg Prod.snd (startResults_counts hst).2.2.1) (Nat.lt_floor_add_one _) hs

/-- C53: from every reachable state the run can be completed. -/
theorem C53_completes {s : Sim} {r0 : Results} {flag : Nat} (hr : McReady ranges b d s) (hst : startResults s = some (r0, flag))
    (hsq : ∀ x, 0 ≤ x → sqrt x ^ 2 ≤ 2 * x) (ht : 0 < target) {w : McWorld}
    (hs : McSteps sqrt target s nT (McWorld.init s r0 cancelled) w) :
    ∃ v, McSteps sqrt target s nT w v ∧ ∀ t < nT, (v.locals t).pc = .done := by
  obtain ⟨k, hk⟩ := hs.count
  obtain ⟨j, hj⟩ : ∃ j, k + j = 20480 * (⌊1 / target ^ 2⌋₊ + 1 + nT) + 20484 * nT + 1 :=
    ⟨_, Nat.add_sub_cancel' (by have := C53_steps hr hst hsq ht hk; omega)⟩
  induction j generalizing k w with
  | zero => have := C53_steps hr hst hsq ht hk; omega
  | succ j ih =>
    by_cases hd : ∀ t < nT, (w.locals t).pc = .done
    · exact ⟨w, .refl, hd⟩
    · push Not at hd
      obtain ⟨t, ht', hpc⟩ := hd
      obtain ⟨hist, Dr, Dl, hi⟩ := McInv.steps hr hs
      obtain ⟨ds, l, g, hm⟩ := mc_progress (target := target) hr hi ht'
      have hstep : McStep sqrt target s nT w { locals := Function.update w.locals t l, shared := g } :=
        .thread w t ht' ⟨hpc, hi.fine t ht'⟩ ds l g hm
      obtain ⟨v, hv, hd⟩ := ih (.step hs hstep) (k + 1) (.thread t ht' ⟨hpc, hi.fine t ht'⟩ ds l g hm hk) (by omega)
      exact ⟨v, McSteps.trans (.step .refl hstep) hv, hd⟩

/-- C53: with a target that is not positive, a single combined range and nobody cancelling, no thread ever finishes: `approx_equity` does
not return. -/
theorem C53_never {s : Sim} {r0 : Results} {flag : Nat} (hr : McReady ranges b d s) (hst : startResults s = some (r0, flag))
    (h1 : (fromRanges (ranges.map fun h => removeConflictingCombos h b d)).length = 1) (hsq : ∀ x, 0 ≤ sqrt x) (ht : target ≤ 0)
    {w : McWorld} (hs : ThreadSteps sqrt target s nT (McWorld.init s r0 false) w) : ∀ t < nT, (w.locals t).pc ≠ .done :=
  fun t htn => (never_leaves hr (by rw [hr.crs_length, h1]) hsq ht (start_stat hst) hs t htn).2

theorem two_start : ∃ s r0 flag, McReady twoHands flopMask 0 s ∧ startResults s = some (r0, flag) := by
  obtain ⟨r, sent, h, _⟩ := two_approx (fun _ => 0) 1 1 false
  obtain ⟨s, hs⟩ := two_ready
  obtain ⟨s, r0, flag, w, hr, hst, _⟩ := approx_world hs.wf hs.boardMask hs.deadMask h
  exact ⟨s, r0, flag, hr, hst⟩

/-- The hypotheses of the theorems on C53 can be met. -/
example : ∃ r sent, ApproxEquity (fun x => x / (x + 1)) twoHands flopMask 0 2 (1 / 10) false (.ok r) sent ∧
    r.evalCount ≤ 4096 * (⌊1 / (1 / 10 : ℚ) ^ 2⌋₊ + 1 + 2) := by
  obtain ⟨s, hs⟩ := two_ready
  obtain ⟨r, sent, h, he⟩ := two_approx (fun x => x / (x + 1)) (1 / 10) 2 false
  refine ⟨r, sent, h, C53_evaluations hs.wf hs.boardMask hs.deadMask (fun x hx => ?_) (by norm_num) h⟩
  rw [div_pow, div_le_iff₀ (by positivity)]
  nlinarith [mul_nonneg hx hx, mul_nonneg (mul_nonneg hx hx) hx]

example : ∃ s r0 flag, McReady twoHands flopMask 0 s ∧ startResults s = some (r0, flag) ∧
    ∃ v, McSteps (fun _ => 0) 1 s 4 (McWorld.init s r0 false) v ∧ ∀ t < 4, (v.locals t).pc = .done := by
  obtain ⟨s, r0, flag, hr, hst⟩ := two_start
  exact ⟨s, r0, flag, hr, hst, C53_completes hr hst (fun x hx => by simp [hx]) (by norm_num) .refl⟩

example : ∃ s r0 flag, McReady twoHands flopMask 0 s ∧ startResults s = some (r0, flag) ∧
    ∀ w, ThreadSteps (fun _ => 1) 0 s 4 (McWorld.init s r0 false) w → ∀ t < 4, (w.locals t).pc ≠ .done := by
  obtain ⟨s, r0, flag, hr, hst⟩ := two_start
  exact ⟨s, r0, flag, hr, hst, fun w hw => C53_never hr hst two_single (fun _ => by norm_num) le_rfl hw⟩

end Pokers
