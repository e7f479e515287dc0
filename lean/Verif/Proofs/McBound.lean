import Verif.Proofs.McStop
import Mathlib.Algebra.Order.Floor.Semiring
/-!
# The random simulation ends
-/
namespace Pokers
open Spec CombinedRange Finset

/-- The statistics over `k` batches, as needed for the bounds. -/
structure Stat (r : Results) (k : Nat) : Prop where
  count : r.batchCount = k
  nonneg : 0 ≤ r.batchSum
  nonneg2 : 0 ≤ r.batchSum2
  le : r.batchSum2 ≤ r.batchSum
  sq : r.batchSum * r.batchSum ≤ k * r.batchSum2

/-- The estimate of a batch is a number between 0 and 1. -/
theorem batch_equity_mem {n : Nat} (hn : 0 < n) {bt : Batch} (hid : IdPlayers n bt) (wins : Nat → Nat) (ties : Nat → ℚ) (wm : Nat → Nat) :
    0 ≤ (mergeMasks n bt ⟨wins, ties, wm, 0, 0⟩).batchEquity / (((mergeMasks n bt ⟨wins, ties, wm, 0, 0⟩).batchHands : ℚ) + eps) ∧
    (mergeMasks n bt ⟨wins, ties, wm, 0, 0⟩).batchEquity / (((mergeMasks n bt ⟨wins, ties, wm, 0, 0⟩).batchHands : ℚ) + eps) ≤ 1 := by
  obtain ⟨_, _, _, _, _, h6, h7⟩ := mergeMasks_eq n bt hid ⟨wins, ties, wm, 0, 0⟩
  rw [h6, h7 hn]
  have hts : ∀ i, 0 ≤ tieShare bt i ∧ tieShare bt i ≤ bt.winsByMask i := by
    intro i
    unfold tieShare
    refine ⟨Nat.cast_nonneg _, ?_⟩
    exact_mod_cast Nat.div_le_self _ _
  have hterm : ∀ i, 0 ≤ (maskWins bt 0 i : ℚ) + maskTies bt 0 i ∧ (maskWins bt 0 i : ℚ) + maskTies bt 0 i ≤ bt.winsByMask i := by
    intro i
    have := hts i
    have h0 : (0 : ℚ) ≤ bt.winsByMask i := Nat.cast_nonneg _
    unfold maskWins maskTies
    by_cases h1 : i.testBit 0 = true <;> by_cases h2 : countOnes i = 1 <;> simp [h1, h2, this.1, this.2]
  have hs0 : 0 ≤ ∑ i ∈ range (2 ^ n), ((maskWins bt 0 i : ℚ) + maskTies bt 0 i) := Finset.sum_nonneg fun i _ => (hterm i).1
  have hs1 : ∑ i ∈ range (2 ^ n), ((maskWins bt 0 i : ℚ) + maskTies bt 0 i) ≤ ∑ i ∈ range (2 ^ n), (bt.winsByMask i : ℚ) :=
    Finset.sum_le_sum fun i _ => (hterm i).2
  have he : (0 : ℚ) < eps := by unfold eps; norm_num
  have hd : (0 : ℚ) ≤ ∑ i ∈ range (2 ^ n), (bt.winsByMask i : ℚ) := Finset.sum_nonneg fun i _ => Nat.cast_nonneg _
  simp only
  rw [zero_add, zero_add]
  push_cast
  refine ⟨div_nonneg hs0 (by linarith), ?_⟩
  rw [div_le_one (by linarith)]
  linarith

section
variable {sqrt : ℚ → ℚ} {target : ℚ} {ranges : List (List Combo)} {b d : Nat} {s : Sim} {r0 : Results} {nT : Nat}

/-- The square of the deviation times the number of batches, without `eps`. -/
def spread (r : Results) (k : Nat) : ℚ := r.batchSum2 - r.batchSum * r.batchSum / k

theorem Stat.spread {r : Results} {k : Nat} (h : Stat r k) (hk : 0 < k) : 0 ≤ spread r k ∧ spread r k ≤ k / 4 := by
  have hk' : (0 : ℚ) < k := by exact_mod_cast hk
  unfold Pokers.spread
  constructor
  · rw [sub_nonneg, div_le_iff₀ hk']
    linarith [h.sq]
  · have h1 := h.le
    have h2 : r.batchSum - r.batchSum * r.batchSum / k ≤ k / 4 := by
      rw [sub_le_iff_le_add, ← sub_nonneg]
      have : (k : ℚ) / 4 + r.batchSum * r.batchSum / k - r.batchSum = (r.batchSum - k / 2) ^ 2 / k := by
        field_simp
        ring
      rw [this]
      positivity
    linarith

theorem Stat.update {r : Results} {k : Nat} (h : Stat r k) {n : Nat} (hn : 0 < n) {bt : Batch} (hid : IdPlayers n bt) (hb : HandStats) :
    Stat (updateResults sqrt n false bt hb r) (k + 1) ∧ (updateResults sqrt n false bt hb r).stdev =
      sqrt (eps + Pokers.spread (updateResults sqrt n false bt hb r) (k + 1)) / ((k : ℚ) + 1) := by
  obtain ⟨e0, e1⟩ := batch_equity_mem hn hid r.wins r.ties r.winsByMask
  unfold updateResults Pokers.spread
  simp only [if_false, Bool.false_eq_true]
  generalize (mergeMasks n bt _).batchEquity / _ = e at e0 e1
  refine ⟨⟨?_, ?_, ?_, ?_, ?_⟩, ?_⟩
  · show r.batchCount + 1 = _
    rw [h.count]; push_cast; ring
  · show 0 ≤ r.batchSum + e
    have := h.nonneg; linarith
  · show 0 ≤ r.batchSum2 + e * e
    have := h.nonneg2; nlinarith
  · show r.batchSum2 + e * e ≤ r.batchSum + e
    have := h.le
    nlinarith
  · show (r.batchSum + e) * (r.batchSum + e) ≤ ((k + 1 : Nat) : ℚ) * (r.batchSum2 + e * e)
    have hsq := h.sq
    push_cast
    by_cases hk : k = 0
    · subst hk
      have : r.batchSum * r.batchSum ≤ 0 := by simpa using hsq
      have h0 : r.batchSum = 0 := by nlinarith [h.nonneg]
      have h2 := h.le
      have h3 := h.nonneg2
      rw [h0]; push_cast; nlinarith
    · have hk' : (0 : ℚ) < k := by exact_mod_cast Nat.pos_of_ne_zero hk
      have h3 : (0 : ℚ) ≤ k * (r.batchSum2 + k * (e * e) - 2 * r.batchSum * e) := by nlinarith [sq_nonneg (r.batchSum - k * e)]
      have h4 := nonneg_of_mul_nonneg_right h3 hk'
      nlinarith
  · show sqrt (eps + (r.batchSum2 + e * e) - (r.batchSum + e) * (r.batchSum + e) / (r.batchCount + 1)) / (r.batchCount + 1) = _
    rw [h.count]
    congr 2
    push_cast
    ring

/-- After more than `1 / target²` batches the deviation is below the target; `sqrt` may be wrong by a factor of `√2`. -/
theorem Stat.small {r : Results} {k : Nat} (h : Stat r k) (hsq : ∀ x, 0 ≤ x → sqrt x ^ 2 ≤ 2 * x) (ht : 0 < target) {n : Nat} (hn : 0 < n)
    {bt : Batch} (hid : IdPlayers n bt) (hb : HandStats) (hk : 1 / target ^ 2 < (k : ℚ) + 1) :
    (updateResults sqrt n false bt hb r).stdev < target := by
  obtain ⟨h1, h2⟩ := h.update (sqrt := sqrt) hn hid hb
  obtain ⟨s0, s1⟩ := h1.spread (by omega)
  rw [h2]
  push_cast at s1
  generalize Pokers.spread _ _ = v at s0 s1 ⊢
  have hc : (1 : ℚ) ≤ (k : ℚ) + 1 := by
    have : (0 : ℚ) ≤ k := Nat.cast_nonneg k
    linarith
  generalize (k : ℚ) + 1 = c at hc s1 hk ⊢
  have he : (0 : ℚ) < eps ∧ eps ≤ 1 / 4 := by unfold eps; norm_num
  have hs := hsq (eps + v) (by linarith [he.1])
  have hb1 : (sqrt (eps + v) / c) ^ 2 ≤ 1 / c := by
    rw [div_pow, div_le_div_iff₀ (by positivity) (by linarith)]
    have : sqrt (eps + v) ^ 2 ≤ c := by linarith [he.2]
    nlinarith
  have hb2 : 1 / c < target ^ 2 := by
    rw [div_lt_iff₀ (by positivity)] at hk
    rw [div_lt_iff₀ (by linarith)]
    linarith
  exact lt_of_pow_lt_pow_left₀ 2 ht.le (lt_of_le_of_lt hb1 hb2)

theorem start_stat {flag : Nat} (h : startResults s = some (r0, flag)) : Stat r0 0 := by
  obtain ⟨h1, h2, h3⟩ := start_noBatch h
  exact ⟨by rw [h3]; simp, by rw [h1], by rw [h2], by rw [h1, h2], by rw [h1]; simp⟩

theorem applyFlushes_stat {n : Nat} (hn : 0 < n) (h0 : Stat r0 0) (hist : List (Batch × HandStats)) (hid : ∀ x ∈ hist, IdPlayers n x.1) :
    Stat (applyFlushes sqrt n false hist r0) hist.length := by
  induction hist using List.reverseRecOn with
  | nil => exact h0
  | append_singleton hist x ih =>
    rw [applyFlushes_snoc, List.length_append]
    exact ((ih fun y hy => hid y (List.mem_append_left _ hy)).update hn (hid x (by simp)) x.2).1

theorem McInv.stat (hr : McReady ranges b d s) (h0 : Stat r0 0) {w : McWorld} {hist : List (Batch × HandStats)}
    {Dr : List (List WHand × List Nat)} {Dl : Nat → List (List WHand × List Nat)} (h : McInv sqrt ranges b d s r0 nT w hist Dr Dl) :
    Stat w.shared.results w.shared.sent.length := by
  rw [h.res, h.sent]
  obtain ⟨e1, _, _, _, _, e2, _⟩ := hr.fields
  exact applyFlushes_stat (by omega) h0 hist h.hids

/-- A thread that will not evaluate again once the token is set. -/
def Leaving (l : McLocal) : Bool := decide (l.pc = .check ∨ l.pc = .final ∨ l.pc = .done)

def leavingCount (w : McWorld) (nT : Nat) : Nat := (List.range nT).countP fun t => Leaving (w.locals t)

theorem leavingCount_le (w : McWorld) (nT : Nat) : leavingCount w nT ≤ nT := by
  have := List.countP_le_length (p := fun t => Leaving (w.locals t)) (l := List.range nT)
  rwa [List.length_range] at this

theorem leavingCount_update (w : McWorld) (nT t : Nat) (ht : t < nT) (l : McLocal) (g : McShared) :
    leavingCount { locals := Function.update w.locals t l, shared := g } nT + (if Leaving (w.locals t) then 1 else 0) =
      leavingCount w nT + (if Leaving l then 1 else 0) := countP_update Leaving w.locals nT t ht l

/-- The bound on the evaluations, in every reachable state. -/
theorem eval_bound (hr : McReady ranges b d s) (hsq : ∀ x, 0 ≤ x → sqrt x ^ 2 ≤ 2 * x) (ht : 0 < target) (h0 : Stat r0 0)
    (he0 : r0.evalCount = 0) {N : Nat} (hN : 1 / target ^ 2 < (N : ℚ) + 1) {cancelled : Bool} {w : McWorld}
    (hs : McSteps sqrt target s nT (McWorld.init s r0 cancelled) w) :
    (w.shared.stopped = false → w.shared.results.evalCount ≤ 4096 * N) ∧
    w.shared.results.evalCount ≤ 4096 * (N + 1 + leavingCount w nT) := by
  have hce := hr.fields.2.2.2.2.1
  have hn : 0 < s.nPlayers := by have := hr.fields; omega
  induction hs with
  | refl =>
    have : (McWorld.init s r0 cancelled).shared.results.evalCount = 0 := he0
    exact ⟨fun _ => by omega, by omega⟩
  | @step u v hsteps hstep ih =>
    obtain ⟨hist, Dr, Dl, hi⟩ := McInv.steps hr hsteps
    obtain ⟨_, _, _, hi'⟩ := McInv.steps hr (.step hsteps hstep)
    have hsc := sent_count hr he0 hsteps
    have hst := hi.stat hr h0
    cases hstep with
    | cancel => exact ⟨(fun h => by cases h), ih.2⟩
    | thread t ht' hpc ds l g h =>
      have he := mcStep_effect h
      have hd := leavingCount_update u nT t ht' l g
      have hc := hi.evalCount ht'
      have hfine := hi'.fine t ht'
      have hids := hi.ids t ht'
      simp only [Function.update_self] at hfine
      unfold StepEffect at he
      generalize hw : u.locals t = l0 at he hpc hc hd hids
      -- the results do not change
      have quiet : g = u.shared → Leaving l0 = false → (u.shared.stopped = false → u.shared.results.evalCount ≤ 4096 * N) ∧
          u.shared.results.evalCount ≤ 4096 * (N + 1 + leavingCount { locals := Function.update u.locals t l, shared := g } nT) := by
        intro hg hl
        rw [hl] at hd
        refine ⟨ih.1, ?_⟩
        have := ih.2
        simp only [Bool.false_eq_true, if_false] at hd
        split at hd <;> omega
      cases hp : l0.pc with
      | start =>
        rw [hp] at he
        have hg := he.1
        obtain ⟨q1, q2⟩ := quiet hg (by unfold Leaving; rw [hp]; decide)
        subst hg
        exact ⟨q1, q2⟩
      | eval =>
        rw [hp] at he
        have hg := he.1
        obtain ⟨q1, q2⟩ := quiet hg (by unfold Leaving; rw [hp]; decide)
        subst hg
        exact ⟨q1, q2⟩
      | restart =>
        rw [hp] at he
        have hg := he.1
        obtain ⟨q1, q2⟩ := quiet hg (by unfold Leaving; rw [hp]; decide)
        subst hg
        exact ⟨q1, q2⟩
      | move =>
        rw [hp] at he
        have hg := he.1
        obtain ⟨q1, q2⟩ := quiet hg (by unfold Leaving; rw [hp]; decide)
        subst hg
        exact ⟨q1, q2⟩
      | check =>
        rw [hp] at he
        obtain ⟨rfl, he⟩ := he
        refine ⟨ih.1, ?_⟩
        show u.shared.results.evalCount ≤ _
        cases hstop : u.shared.stopped with
        | false => have := ih.1 hstop; omega
        | true =>
          have hl : Leaving l = true := by rw [he, hstop]; rfl
          have hl0 : Leaving l0 = true := by unfold Leaving; rw [hp]; decide
          rw [hl, hl0] at hd
          have := ih.2
          simp only [if_true] at hd
          omega
      | flush =>
        rw [hp] at he hc
        obtain ⟨rfl, he⟩ := he
        change l0.stats.evalCount = 4096 at hc
        have hl : Leaving l = true := by rw [he]; rfl
        have hl0 : Leaving l0 = false := by unfold Leaving; rw [hp]; decide
        rw [hl, hl0] at hd
        simp only [if_true, Bool.false_eq_true, if_false] at hd
        have hev := update_evalCount (sqrt := sqrt) (target := target) (s := s) false l0 u.shared
        refine ⟨fun hns => ?_, ?_⟩
        · change (McShared.update sqrt target s false l0 u.shared).stopped = false at hns
          show (McShared.update sqrt target s false l0 u.shared).results.evalCount ≤ _
          rw [hev, hc]
          by_contra hcon
          have hlen : N ≤ u.shared.sent.length := by omega
          have hsm := hst.small (sqrt := sqrt) hsq ht hn hids l0.hands (lt_of_lt_of_le hN (by
            have : (N : ℚ) ≤ u.shared.sent.length := by exact_mod_cast hlen
            linarith))
          unfold McShared.update at hns
          simp only at hns
          rw [hce, if_pos ⟨trivial, hsm⟩] at hns
          cases hns
        · show (McShared.update sqrt target s false l0 u.shared).results.evalCount ≤ _
          rw [hev, hc]
          have := ih.2
          omega
      | final =>
        rw [hp] at he hc
        obtain ⟨rfl, he⟩ := he
        change l0.stats.evalCount = 0 at hc
        have hl : Leaving l = true := by rw [he]; rfl
        have hl0 : Leaving l0 = true := by unfold Leaving; rw [hp]; decide
        rw [hl, hl0] at hd
        simp only [if_true] at hd
        have hev := update_evalCount (sqrt := sqrt) (target := target) (s := s) true l0 u.shared
        refine ⟨fun hns => ?_, ?_⟩
        · change (McShared.update sqrt target s true l0 u.shared).stopped = false at hns
          show (McShared.update sqrt target s true l0 u.shared).results.evalCount ≤ _
          rw [hev, hc]
          unfold McShared.update at hns
          simp only [Bool.true_eq_false, false_and, if_false] at hns
          have := ih.1 hns
          omega
        · show (McShared.update sqrt target s true l0 u.shared).results.evalCount ≤ _
          rw [hev, hc]
          have := ih.2
          omega
      | done => exact absurd hp hpc.1
      | panicked => exact absurd hp hpc.2

/-! ## The number of steps -/

/-- `k` steps of threads, and any number of times setting the token. -/
inductive McCount (sqrt : ℚ → ℚ) (target : ℚ) (s : Sim) (nThreads : Nat) (w : McWorld) : Nat → McWorld → Prop
  | refl : McCount sqrt target s nThreads w 0 w
  | thread {k : Nat} {u : McWorld} (t : Nat) (ht : t < nThreads) (hpc : (u.locals t).pc ≠ .done ∧ (u.locals t).pc ≠ .panicked)
      (ds : Draws) (l : McLocal) (g : McShared) (h : mcStep sqrt target s (u.locals t) u.shared ds = .ok (l, g) []) :
      McCount sqrt target s nThreads w k u →
      McCount sqrt target s nThreads w (k + 1) { locals := Function.update u.locals t l, shared := g }
  | cancel {k : Nat} {u : McWorld} : McCount sqrt target s nThreads w k u →
      McCount sqrt target s nThreads w k { u with shared := { u.shared with stopped := true } }

theorem McCount.steps {w v : McWorld} {k : Nat} (h : McCount sqrt target s nT w k v) : McSteps sqrt target s nT w v := by
  induction h with
  | refl => exact .refl
  | thread t ht hpc ds l g h _ ih => exact .step ih (.thread _ t ht hpc ds l g h)
  | cancel _ ih => exact .step ih (.cancel _)

/-- A run is a number of steps. -/
theorem McSteps.count {w v : McWorld} (h : McSteps sqrt target s nT w v) : ∃ k, McCount sqrt target s nT w k v := by
  induction h with
  | refl => exact ⟨0, .refl⟩
  | step _ hs ih =>
    obtain ⟨k, ih⟩ := ih
    cases hs with
    | thread t ht hpc ds l g h => exact ⟨k + 1, .thread t ht hpc ds l g h ih⟩
    | cancel => exact ⟨k, .cancel ih⟩

theorem sum_update {α : Type} (f : α → Nat) (g : Nat → α) (n t : Nat) (ht : t < n) (a : α) :
    ∑ i ∈ range n, f (Function.update g t a i) + f (g t) = ∑ i ∈ range n, f (g i) + f a := by
  induction n with
  | zero => omega
  | succ n ih =>
    rw [Finset.sum_range_succ, Finset.sum_range_succ]
    by_cases hn : t = n
    · subst hn
      rw [Function.update_self]
      have : ∑ i ∈ range t, f (Function.update g t a i) = ∑ i ∈ range t, f (g i) := by
        apply Finset.sum_congr rfl
        intro i hi
        rw [Function.update_of_ne (by have := Finset.mem_range.1 hi; omega)]
      omega
    · rw [Function.update_of_ne (by omega)]
      have := ih (by omega)
      omega

/-- The number of steps since the last evaluation, plus five for every evaluation not yet in the results. -/
def potential (l : McLocal) : Nat := 5 * l.stats.evalCount +
  match l.pc with
  | .start => 0
  | .eval => 4
  | .flush => 0
  | .check => 1
  | .restart => 2
  | .move => 3
  | .final => 3
  | .done => 4
  | .panicked => 0

theorem step_count (hr : McReady ranges b d s) {cancelled : Bool} {w : McWorld} {k : Nat}
    (hs : McCount sqrt target s nT (McWorld.init s r0 cancelled) k w) :
    k ≤ 5 * w.shared.results.evalCount + ∑ t ∈ range nT, potential (w.locals t) := by
  induction hs with
  | refl => omega
  | cancel _ ih => exact ih
  | @thread k u t ht hpc ds l g h hsteps ih =>
    obtain ⟨hist, Dr, Dl, hi⟩ := McInv.steps hr hsteps.steps
    obtain ⟨_, _, _, hi'⟩ := McInv.steps hr (.step hsteps.steps (.thread _ t ht hpc ds l g h))
    have he := mcStep_effect h
    have hd := sum_update potential u.locals nT t ht l
    have hc := hi.evalCount ht
    have hfine := hi'.fine t ht
    simp only [Function.update_self] at hfine
    unfold StepEffect at he
    generalize hw : u.locals t = l0 at he hpc hc hd
    simp only
    cases hp : l0.pc with
    | start =>
      rw [hp] at he
      obtain ⟨rfl, h1, _, h2⟩ := he
      have : potential l0 + 1 ≤ potential l := by
        unfold potential
        rw [h1, hp]
        rcases h2 with h2 | h2 | h2
        · rw [h2]; simp
        · rw [h2]; simp
        · exact absurd h2 hfine
      omega
    | eval =>
      rw [hp] at he
      obtain ⟨rfl, h2, h1⟩ := he
      have : potential l0 + 1 ≤ potential l := by
        unfold potential
        rw [h1 hfine, hp]
        rcases h2 with h2 | h2 | h2
        · rw [h2]; simp; omega
        · rw [h2]; simp; omega
        · exact absurd h2 hfine
      omega
    | flush =>
      rw [hp] at he hc
      obtain ⟨rfl, h1⟩ := he
      change l0.stats.evalCount = 4096 at hc
      rw [update_evalCount, hc]
      have e1 : potential l0 = 5 * 4096 := by unfold potential; rw [hc, hp]; rfl
      have e2 : potential l = 1 := by rw [h1]; rfl
      omega
    | check =>
      rw [hp] at he
      obtain ⟨rfl, h1⟩ := he
      have : potential l0 + 1 ≤ potential l := by
        rw [h1]
        unfold potential
        rw [hp]
        cases u.shared.stopped <;> simp
      omega
    | restart =>
      rw [hp] at he
      obtain ⟨rfl, h1, _, h2⟩ := he
      have : potential l0 + 1 ≤ potential l := by
        unfold potential
        rw [h1, hp]
        rcases h2 with h2 | h2 | h2
        · rw [h2]; simp
        · rw [h2]; simp
        · exact absurd h2 hfine
      omega
    | move =>
      rw [hp] at he
      obtain ⟨rfl, h1, _, h2⟩ := he
      have : potential l0 + 1 ≤ potential l := by
        unfold potential
        rw [h1, hp]
        rcases h2 with h2 | h2
        · rw [h2]; simp
        · exact absurd h2 hfine
      omega
    | final =>
      rw [hp] at he hc
      obtain ⟨rfl, h1⟩ := he
      change l0.stats.evalCount = 0 at hc
      rw [update_evalCount, hc]
      have : potential l0 + 1 ≤ potential l := by
        rw [h1]
        unfold potential
        rw [hp]
        simp
      omega
    | done => exact absurd hp hpc.1
    | panicked => exact absurd hp hpc.2

/-- The number of steps is bounded, for every schedule and all random values. -/
theorem step_bound (hr : McReady ranges b d s) (hsq : ∀ x, 0 ≤ x → sqrt x ^ 2 ≤ 2 * x) (ht : 0 < target) (h0 : Stat r0 0)
    (he0 : r0.evalCount = 0) {N : Nat} (hN : 1 / target ^ 2 < (N : ℚ) + 1) {cancelled : Bool} {w : McWorld} {k : Nat}
    (hs : McCount sqrt target s nT (McWorld.init s r0 cancelled) k w) :
    k ≤ 20480 * (N + 1 + nT) + 20484 * nT := by
  have h1 := step_count hr hs
  have h2 := (eval_bound hr hsq ht h0 he0 hN hs.steps).2
  have h3 := leavingCount_le w nT
  obtain ⟨hist, Dr, Dl, hi⟩ := McInv.steps hr hs.steps
  have h4 : ∑ t ∈ range nT, potential (w.locals t) ≤ ∑ t ∈ range nT, 20484 := by
    apply Finset.sum_le_sum
    intro t ht
    have hc := hi.evalCount (Finset.mem_range.1 ht)
    unfold potential
    cases hp : (w.locals t).pc <;> rw [hp] at hc <;> simp only [LenAt] at hc <;> simp only <;> omega
  rw [Finset.sum_const, Finset.card_range, smul_eq_mul] at h4
  omega

/-! ## A target that cannot be reached -/

/-- Steps of threads only: nobody else sets the token. -/
inductive ThreadSteps (sqrt : ℚ → ℚ) (target : ℚ) (s : Sim) (nThreads : Nat) (w : McWorld) : McWorld → Prop
  | refl : ThreadSteps sqrt target s nThreads w w
  | thread {u : McWorld} (t : Nat) (ht : t < nThreads) (hpc : (u.locals t).pc ≠ .done ∧ (u.locals t).pc ≠ .panicked)
      (ds : Draws) (l : McLocal) (g : McShared) (h : mcStep sqrt target s (u.locals t) u.shared ds = .ok (l, g) []) :
      ThreadSteps sqrt target s nThreads w u →
      ThreadSteps sqrt target s nThreads w { locals := Function.update u.locals t l, shared := g }

theorem ThreadSteps.steps {w v : McWorld} (h : ThreadSteps sqrt target s nT w v) : McSteps sqrt target s nT w v := by
  induction h with
  | refl => exact .refl
  | thread t ht hpc ds l g h _ ih => exact .step ih (.thread _ t ht hpc ds l g h)

/-- With a target that is not positive and without cancellation the token is never set. -/
theorem never_stopped (hr : McReady ranges b d s) (hsq : ∀ x, 0 ≤ sqrt x) (ht : target ≤ 0) (h0 : Stat r0 0) {w : McWorld}
    (hs : ThreadSteps sqrt target s nT (McWorld.init s r0 false) w) : w.shared.stopped = false := by
  have hce := hr.fields.2.2.2.2.1
  have hn : 0 < s.nPlayers := by have := hr.fields; omega
  induction hs with
  | refl => rfl
  | @thread u t ht' hpc ds l g h hsteps ih =>
    obtain ⟨hist, Dr, Dl, hi⟩ := McInv.steps hr hsteps.steps
    have hst := hi.stat hr h0
    have hids := hi.ids t ht'
    have he := mcStep_effect h
    have hup : ∀ f, (McShared.update sqrt target s f (u.locals t) u.shared).stopped = false := by
      intro f
      unfold McShared.update
      simp only
      rw [hce, (hst.update (sqrt := sqrt) hn hids (u.locals t).hands).2, if_neg, ih]
      rintro ⟨_, hlt⟩
      have : 0 ≤ sqrt (eps + Pokers.spread (updateResults sqrt s.nPlayers false (u.locals t).stats (u.locals t).hands u.shared.results)
          (u.shared.sent.length + 1)) / ((u.shared.sent.length : ℚ) + 1) :=
        div_nonneg (hsq _) (by positivity)
      linarith
    show g.stopped = false
    unfold StepEffect at he
    cases hp : (u.locals t).pc <;> rw [hp] at he <;> obtain ⟨rfl, _⟩ := he
    all_goals first | exact ih | exact hup _

/-- … and with a single combined range no thread ever leaves its loop. -/
theorem never_leaves (hr : McReady ranges b d s) (h1 : s.combinedRanges.length = 1) (hsq : ∀ x, 0 ≤ sqrt x) (ht : target ≤ 0)
    (h0 : Stat r0 0) {w : McWorld} (hs : ThreadSteps sqrt target s nT (McWorld.init s r0 false) w) :
    ∀ t < nT, (w.locals t).pc ≠ .final ∧ (w.locals t).pc ≠ .done := by
  induction hs with
  | refl => intro t _; exact ⟨(fun h => by cases h), (fun h => by cases h)⟩
  | @thread u t ht' hpc ds l g h hsteps ih =>
    have hg := never_stopped hr hsq ht h0 hsteps
    have he := mcStep_effect h
    intro x hx
    by_cases e : x = t
    · subst e
      simp only [Function.update_self]
      have hx1 := (ih x hx).1
      have hst := single_start (sqrt := sqrt) (target := target) (l := u.locals x) hr h1 (rest := []) (ds := ds) (g := u.shared) (l' := l) (g' := g)
      unfold StepEffect at he
      cases hp : (u.locals x).pc with
      | start =>
        rw [hp] at he
        refine ⟨hst (Or.inl hp) h, ?_⟩
        rcases he.2.2.2 with h2 | h2 | h2 <;> rw [h2] <;> decide
      | eval =>
        rw [hp] at he
        rcases he.2.1 with h2 | h2 | h2 <;> rw [h2] <;> decide
      | flush => rw [hp] at he; rw [he.2]; exact ⟨(fun h => by cases h), (fun h => by cases h)⟩
      | check => rw [hp] at he; rw [he.2, hg]; exact ⟨(fun h => by cases h), (fun h => by cases h)⟩
      | restart =>
        rw [hp] at he
        refine ⟨hst (Or.inr hp) h, ?_⟩
        rcases he.2.2.2 with h2 | h2 | h2 <;> rw [h2] <;> decide
      | move =>
        rw [hp] at he
        rcases he.2.2.2 with h2 | h2 <;> rw [h2] <;> decide
      | final => exact absurd hp hx1
      | done => exact absurd hp hpc.1
      | panicked => exact absurd hp hpc.2
    · simp only [Function.update_of_ne e]
      exact ih x hx

end

end Pokers
