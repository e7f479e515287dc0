import Verif.Proofs.ChanceRun
import Verif.Spec.Chance
/-!
# C92: the probabilities of the random simulation
-/
namespace Pokers

open Spec
open scoped ENNReal

variable {sqrt : ℚ → ℚ} {target : ℚ} {ranges : List (List Combo)} {b d nT : Nat} {s : Sim} {r0 : Results} {flag : Nat}

/-- The probability that none of 1000 attempts at a deal succeeds: an attempt chooses an entry of every combined range. -/
noncomputable def noDealChance (ranges : List (List Combo)) (b d : Nat) (s : Sim) : ℝ≥0∞ :=
  (1 - ((deals (specRanges ranges) (maskCards b ++ maskCards d)).length : ℝ≥0∞) / ((s.combinedRanges.map (·.size)).prod : ℕ)) ^ 1000

theorem McReady.misses_eq (h : McReady ranges b d s) : misses s.combinedRanges (b ||| d) ^ 1000 = noDealChance ranges b d s := by
  have hm := misses_add s.combinedRanges (b ||| d) h.drawable
  have hl : (legalIdxs s.combinedRanges (b ||| d)).length = (deals (specRanges ranges) (maskCards b ++ maskCards d)).length := by
    rw [← h.dealAt_perm.length_eq, List.length_map]
  unfold noDealChance
  rw [← hl, ENNReal.div_eq_inv_mul]
  congr 1
  refine ENNReal.eq_sub_of_add_eq ?_ ?_
  · refine ne_top_of_le_ne_top ENNReal.one_ne_top ?_
    rw [← hm]
    exact le_self_add
  · rw [add_comm]; exact hm

theorem startResults_batches (h : startResults s = some (r0, flag)) : r0.batchCount = 0 := by
  unfold startResults at h
  simp only [Option.map_eq_some_iff] at h
  obtain ⟨_, _, h⟩ := h
  cases h
  rfl

/-- C92: each thread, whatever the order of their steps, draws its batches independently and uniformly from `batchSpace`: the counters in the shared
results, after `K t` batches of each thread `t`, are distributed like those of a uniform choice from `runSpace`. -/
theorem C92_law (h : McReady ranges b d s) (hsq : ∀ x, 0 ≤ sqrt x) (ht : target ≤ 0) (hr0 : startResults s = some (r0, flag)) (K : Nat → Nat)
    (hK : ∀ t < nT, 0 < K t) (sched : List Nat) (hs : ∀ t ∈ sched, t < nT) (hc : ∀ t < nT, sched.count t = stepsFor (K t)) (φ : FT → ℝ≥0∞) :
    expect (scheduled sqrt target s sched (McWorld.init s r0 false))
        (fun w => if ∀ t < nT, (w.locals t).pc = .check then φ (trunc ranges.length (resFull w.shared.results)) else 0) =
      (1 - noDealChance ranges b d s) ^ (∑ t ∈ Finset.range nT, K t) *
        average (runSpace s b d (∑ t ∈ Finset.range nT, K t)) fun sd => φ (trunc ranges.length (showsFull sd)) := by
  have hn := h.fields.1
  have hg : (McWorld.init s r0 false).shared.stopped = false := rfl
  have hgi : Good s b d (McLocal.init s.nPlayers) := good_init s b d fun p _ => rfl
  have ha : Accounts s b d nT 0 (McWorld.init s r0 false) fun _ => 0 := by
    refine ⟨fun t _ => hgi, rfl, ?_, ?_⟩
    · show 0 ≤ r0.batchCount
      rw [startResults_batches hr0]
    · show trunc s.nPlayers (resFull r0) = _
      rw [(startResults_counts hr0).2.2.1, map_zero, Finset.sum_const_zero, add_zero]
  rw [h.expect_scheduled hsq ht hg (F0 := 0) (f := fun _ => (McLocal.init 0, 0)) (nT := nT)
    (Ψ := fun f => if ∀ t < nT, (f t).1.pc = .check then φ (∑ t ∈ Finset.range nT, (f t).2) else 0) (fun w acc hw => ?_) sched _ _ hs ha,
    together_congr _ nT _ (Q := fun t => solo s (McWorld.init s r0 false).shared (stepsFor (K t)) (McLocal.init s.nPlayers, 0)) (fun t ht => by rw [hc t ht]; rfl),
    h.expect_together hg K hgi rfl ⟨rfl, rfl⟩ _ nT φ _ hK (fun f' _ e => if_pos e) (fun f' _ e => if_neg fun e' => ?_), h.misses_eq, hn]
  · obtain ⟨t, ht, e⟩ := e
    rw [e' t ht] at e
    cases e
  · have e1 : (∀ t < nT, (if t < nT then (w.locals t, acc t) else (McLocal.init 0, 0)).1.pc = .check) ↔ ∀ t < nT, (w.locals t).pc = .check :=
      forall₂_congr fun t ht => by rw [if_pos ht]
    have e2 : ∑ t ∈ Finset.range nT, (if t < nT then (w.locals t, acc t) else (McLocal.init 0, 0)).2 = ∑ t ∈ Finset.range nT, acc t :=
      Finset.sum_congr rfl fun t ht => by rw [if_pos (Finset.mem_range.1 ht)]
    have e3 := hw.sum
    rw [zero_add, hn] at e3
    simp only [e1, e2, e3]

/-! ## The equities -/

/-- The equity of player `p` computed from the weights `m` of the showdowns won by each set of players. -/
def equityFrom (n : Nat) (m : Nat → Nat) (p : Nat) : ℚ :=
  (∑ i ∈ Finset.range (2 ^ n), (m i : ℚ) * if p ∈ maskPlayers n i then 1 / ((maskPlayers n i).length : ℚ) else 0) / (∑ i ∈ Finset.range (2 ^ n), m i : ℕ)

theorem sum_masks {key : List WHand × List Nat → Nat} {N : Nat} (G : Nat → ℚ) : ∀ (sd : List (List WHand × List Nat)), (∀ x ∈ sd, key x < N) →
    ∑ i ∈ Finset.range N, (weightOf sd (fun x => key x = i) : ℚ) * G i = (sd.map fun x => (Spec.dealWeight x.1 : ℚ) * G (key x)).sum
  | [], _ => by simp [weightOf]
  | x :: sd, h => by
    have e : ∀ i, weightOf (x :: sd) (fun x => key x = i) = (if key x = i then Spec.dealWeight x.1 else 0) + weightOf sd fun x => key x = i := fun i => by
      rw [weightOf_eq_sum, weightOf_eq_sum, List.map_cons, List.sum_cons]
    rw [List.map_cons, List.sum_cons, ← sum_masks G sd fun y hy => h y (List.mem_cons_of_mem _ hy)]
    simp only [e]
    push_cast
    simp only [add_mul, Finset.sum_add_distrib]
    congr 1
    rw [Finset.sum_eq_single (key x)]
    · rw [if_pos rfl]
    · intro i _ hi
      rw [if_neg (Ne.symm hi), zero_mul]
    · intro hx
      exact absurd (Finset.mem_range.2 (h x (List.mem_cons_self ..))) hx

theorem equityFrom_eq {n : Nat} {m : Nat → Nat} {sd : List (List WHand × List Nat)} (hl : ∀ x ∈ sd, x.1.length = n) (h8 : n ≤ 8)
    (hm : ∀ i < 2 ^ n, m i = weightOf sd fun x => u8Mask (winners x.2 x.1) = i) (p : Nat) :
    equityFrom n m p = equityIn sd p ∧ ∑ i ∈ Finset.range (2 ^ n), m i = totalWeight sd := by
  have hk : ∀ x ∈ sd, u8Mask (winners x.2 x.1) < 2 ^ n := fun x hx => by
    have := winMask_lt (B := x.2) (d := x.1) (by rw [hl x hx]; omega)
    rwa [hl x hx] at this
  have h1 := sum_masks (fun i => if p ∈ maskPlayers n i then 1 / ((maskPlayers n i).length : ℚ) else 0) sd hk
  have h2 := sum_masks (fun _ => 1) sd hk
  have hT : ∑ i ∈ Finset.range (2 ^ n), m i = totalWeight sd := by
    have e : ((∑ i ∈ Finset.range (2 ^ n), m i : ℕ) : ℚ) = (totalWeight sd : ℚ) := by
      rw [Finset.sum_congr rfl fun i hi => hm i (Finset.mem_range.1 hi)]
      simp only [mul_one] at h2
      push_cast
      rw [h2]
      unfold totalWeight
      rw [Nat.cast_list_sum, List.map_map]
      rfl
    exact_mod_cast e
  refine ⟨?_, hT⟩
  unfold equityFrom equityIn
  rw [hT, Finset.sum_congr rfl fun i hi => by rw [hm i (Finset.mem_range.1 hi)], h1]
  congr 2
  refine List.map_congr_left fun x hx => ?_
  have : winners x.2 x.1 = maskPlayers n (u8Mask (winners x.2 x.1)) := by
    have := (u8Mask_eq_iff (B := x.2) (d := x.1) (by rw [hl x hx]; exact h8) (i := u8Mask (winners x.2 x.1)) (by rw [hl x hx]; exact hk x hx)).1 rfl
    rwa [hl x hx] at this
  unfold winning
  rw [← this]
  split
  · ring
  · ring

/-! ## The end of a run -/

theorem expect_mono {α : Type} {f : Draws → Out α} {φ χ : α → ℝ≥0∞} (h : ∀ q a, f q = .ok a [] → φ a ≤ χ a) : expect f φ ≤ expect f χ := by
  refine ENNReal.tsum_le_tsum fun ds => ?_
  by_cases h' : ∃ a, f ds = .ok a []
  · obtain ⟨a, h'⟩ := h'
    rw [contribution_of _ h', contribution_of _ h']
    exact mul_le_mul_right (h ds a h') _
  · push Not at h'
    rw [contribution_not _ h', contribution_not _ h']

/-- What the steps of the threads lead to. -/
theorem McReady.scheduled_good (h : McReady ranges b d s) (w0 : McWorld) : ∀ (sched : List Nat) (w : McWorld), (∀ t ∈ sched, t < nT) →
    (∀ t < nT, Good s b d (w.locals t)) → Reads (scheduled sqrt target s sched w) ∧ CanEnd (scheduled sqrt target s sched w) ∧
      ∀ q w', scheduled sqrt target s sched w q = .ok w' [] → (∀ t < nT, Good s b d (w'.locals t)) ∧
        (McSteps sqrt target s nT w0 w → McSteps sqrt target s nT w0 w')
  | [], w, _, hw => ⟨Reads.ret w, CanEnd.ret w, fun q w' e => by injection e with e _; rw [← e]; exact ⟨hw, id⟩⟩
  | t :: ts, w, hs, hw => by
    have htT := hs t (List.mem_cons_self ..)
    obtain ⟨r1, r2, r3⟩ := h.good_step (sqrt := sqrt) (target := target) (hw t htT) w.shared
    have hg : ∀ y : McLocal × McShared, Good s b d y.1 → ∀ u < nT, Good s b d (Function.update w.locals t y.1 u) := fun y hy u hu => by
      by_cases hut : u = t
      · rw [hut, Function.update_self]; exact hy
      · rw [Function.update_of_ne hut]; exact hw u hu
    have hr : ∀ q y r, mcStep sqrt target s (w.locals t) w.shared q = .ok y r → ∃ p, mcStep sqrt target s (w.locals t) w.shared p = .ok y [] := fun q y r e => by
      obtain ⟨p, _, e2⟩ := r1 q y r e
      have := e2 []
      rw [List.append_nil] at this
      exact ⟨p, this⟩
    have ih : ∀ y : McLocal × McShared, Good s b d y.1 → _ := fun y hy =>
      h.scheduled_good w0 ts { locals := Function.update w.locals t y.1, shared := y.2 } (fun u hu => hs u (List.mem_cons_of_mem _ hu)) (hg y hy)
    refine ⟨r1.bind fun q y r e => ?_, CanEnd.bind r1 r2 fun q y e => (ih y (r3 q y e)).2.1, fun q w' e => ?_⟩
    · obtain ⟨p, e⟩ := hr q y r e
      exact (ih y (r3 p y e)).1
    · obtain ⟨y, r, e1, e2⟩ := bindD_ok e
      obtain ⟨p, e3⟩ := hr q y r e1
      obtain ⟨i1, i2⟩ := (ih y (r3 p y e3)).2.2 r w' e2
      refine ⟨i1, fun hst => i2 ?_⟩
      by_cases hd : (w.locals t).pc = .done
      · rw [step_done w.shared hd] at e3
        injection e3 with e3 _
        rw [← e3]
        simp only [Function.update_eq_self]
        exact hst
      · exact .step hst (.thread w t htT ⟨hd, (hw t htT).calm⟩ p y.1 y.2 e3)

/-- How far a thread is on its way out. -/
def outPhase : McPc → Nat
  | .check => 0
  | .final => 1
  | _ => 2

/-- After a cancellation the threads leave without drawing anything. -/
theorem ending (hn : s.nPlayers = ranges.length) : ∀ (sched : List Nat) (w : McWorld), (∀ t ∈ sched, t < nT) → w.shared.stopped = true →
    (∀ t < nT, ((w.locals t).pc = .check ∨ (w.locals t).pc = .final ∨ (w.locals t).pc = .done) ∧ Unused s (w.locals t)) →
    ∃ w2, scheduled sqrt target s sched w = retD w2 ∧ trunc s.nPlayers (resFull w2.shared.results) = trunc s.nPlayers (resFull w.shared.results) ∧
      ∀ t < nT, 2 ≤ outPhase (w.locals t).pc + sched.count t → (w2.locals t).pc = .done
  | [], w, _, _, hw => ⟨w, rfl, rfl, fun t ht h2 => by
      rcases (hw t ht).1 with e | e | e
      · rw [e] at h2; simp [outPhase] at h2
      · rw [e] at h2; simp [outPhase] at h2
      · exact e⟩
  | t :: ts, w, hs, hst, hw => by
    have htT := hs t (List.mem_cons_self ..)
    have hs' : ∀ u ∈ ts, u < nT := fun u hu => hs u (List.mem_cons_of_mem _ hu)
    obtain ⟨hpc, hu⟩ := hw t htT
    have key : ∀ (l' : McLocal) (g' : McShared), mcStep sqrt target s (w.locals t) w.shared = retD (l', g') → g'.stopped = true →
        (l'.pc = .check ∨ l'.pc = .final ∨ l'.pc = .done) → Unused s l' → outPhase (w.locals t).pc + 1 ≤ outPhase l'.pc ∨ outPhase l'.pc = 2 →
        trunc s.nPlayers (resFull g'.results) = trunc s.nPlayers (resFull w.shared.results) →
        ∃ w2, scheduled sqrt target s (t :: ts) w = retD w2 ∧ trunc s.nPlayers (resFull w2.shared.results) = trunc s.nPlayers (resFull w.shared.results) ∧
          ∀ u < nT, 2 ≤ outPhase (w.locals u).pc + (t :: ts).count u → (w2.locals u).pc = .done := by
      intro l' g' e1 e2 e3 e4 e5 e6
      obtain ⟨w2, f1, f2, f3⟩ := ending hn ts { locals := Function.update w.locals t l', shared := g' } hs' e2 fun u hu' => by
        by_cases hut : u = t
        · simp only [hut, Function.update_self]; exact ⟨e3, e4⟩
        · simp only [Function.update_of_ne hut]; exact hw u hu'
      refine ⟨w2, ?_, f2.trans e6, fun u hu' h2 => f3 u hu' ?_⟩
      · show bindD (mcStep sqrt target s (w.locals t) w.shared) _ = _
        rw [e1, bindD_ret, f1]
      · by_cases hut : u = t
        · subst hut
          simp only [Function.update_self]
          rw [List.count_cons_self] at h2
          omega
        · simp only [Function.update_of_ne hut]
          rwa [List.count_cons_of_ne (Ne.symm hut)] at h2
    rcases hpc with e | e | e
    · refine key { w.locals t with pc := .final } w.shared ?_ hst (Or.inr (Or.inl rfl)) hu (Or.inl (by rw [e]; simp [outPhase])) rfl
      rw [step_check _ e, hst]
      rfl
    · refine key _ _ (step_final _ e) ?_ (Or.inr (Or.inr rfl)) hu (Or.inr rfl) ?_
      · unfold McShared.update
        dsimp only
        rw [if_neg (by rintro ⟨h, _⟩; cases h), hst]
      · have := resFull_update sqrt s.nPlayers s.calcExact ((w.locals t).stats, (w.locals t).hands) w.shared.results (by rw [hu.1]; exact batchInit_ids _)
        refine this.trans ?_
        rw [hu.full, map_zero, add_zero]
    · exact key _ _ (step_done _ e) hst (Or.inr (Or.inr e)) hu (Or.inr (by rw [e]; rfl)) rfl

/-- The owner of the cancel token sets it. -/
def McWorld.cancel (w : McWorld) : McWorld := { w with shared := { w.shared with stopped := true } }

/-- A run of the threads that is cancelled after the steps `sched`: the results when all threads have ended. -/
def cancelAfter (sqrt : ℚ → ℚ) (target : ℚ) (s : Sim) (nT : Nat) (sched : List Nat) (w : McWorld) : Draws → Out McWorld :=
  bindD (scheduled sqrt target s sched w) fun w => scheduled sqrt target s (List.range nT ++ List.range nT) w.cancel

/-- The equity of player `p` in the results is closer than `ε` to `e`. -/
def Within (r : Results) (p : Nat) (e ε : ℚ) : Prop := ∃ q, r.equities[p]? = some (some q) ∧ |q - e| < ε

/-- The counters `F` have showdowns, in which the equity of player `p` is closer than `ε` to `e`. -/
def CountsWithin (n : Nat) (F : FT) (p : Nat) (e ε : ℚ) : Prop := 0 < ∑ i ∈ Finset.range (2 ^ n), F.1.1 i ∧ |equityFrom n F.1.1 p - e| < ε

theorem countsWithin_iff {n : Nat} {sd : List (List WHand × List Nat)} (hl : ∀ x ∈ sd, x.1.length = n) (h8 : n ≤ 8) {p : Nat} {e ε : ℚ} :
    CountsWithin n (trunc n (showsFull sd)) p e ε ↔ 0 < totalWeight sd ∧ |equityIn sd p - e| < ε := by
  have h := equityFrom_eq (m := (trunc n (showsFull sd)).1.1) hl h8 (fun i hi => by
    show cut (2 ^ n) (sdTally sd).1 i = _
    rw [cut_apply _ hi, sdTally_mask]) p
  unfold CountsWithin
  rw [h.1, h.2]

/-- What a run returns that has reached the state `w`. -/
theorem within_of_counts (h : McReady ranges b d s) (hr0 : startResults s = some (r0, flag)) (h8 : ranges.length ≤ 8) (hws : WholeShares ranges b d)
    {w : McWorld} (hw : McSteps sqrt target s nT (McWorld.init s r0 false) w) {p : Nat} (hp : p < ranges.length) {e ε : ℚ}
    (hc : CountsWithin ranges.length (trunc ranges.length (resFull w.shared.results)) p e ε) : Within (finishResults s flag w.shared.results) p e ε := by
  obtain ⟨hist, Dr, Dl, hi, _⟩ := McInv.steps_tracks h hw
  have hrun : McRun sqrt ranges b d (finishResults s flag w.shared.results) s flag r0 hist Dr :=
    ⟨h, hr0, by rw [hi.res], hi.hids, hi.hbatch, hi.hsum, hi.hcount, hi.legalR⟩
  have hf := hrun.full
  rw [finishResults_full, h.fields.1] at hf
  rw [hf, countsWithin_iff (fun x hx => (deals_wf h.wf (hrun.legal x hx).1).1) h8] at hc
  refine ⟨equityIn Dr p, ?_, hc.2⟩
  rw [(hrun.calc.exact_shares h8 hws).2 p hp, ← winning_sum]
  unfold fdiv equityIn
  rw [if_neg (by exact_mod_cast hc.1.ne')]

theorem average_indicator {α : Type} (l : List α) (P : α → Prop) [DecidablePred P] :
    (average l fun x => if P x then 1 else 0) = (l.countP (fun x => decide (P x)) : ℝ≥0∞) / l.length := by
  unfold average
  rw [ENNReal.div_eq_inv_mul]
  congr 1
  induction l with
  | nil => simp
  | cons x l ih =>
    rw [List.map_cons, List.sum_cons, ih, List.countP_cons]
    by_cases hx : P x
    · simp [hx, add_comm]
    · simp [hx]

theorem average_within {α : Type} {l : List α} (h0 : l ≠ []) {P Q : α → Prop} [DecidablePred P] [DecidablePred Q] (hPQ : ∀ x ∈ l, ¬ Q x → P x) {x : ℚ}
    (h : (l.countP (fun x => decide (Q x)) : ℚ) ≤ l.length * x) : ENNReal.ofReal ((1 - x : ℚ) : ℝ) ≤ average l fun x => if P x then 1 else 0 := by
  have hl : 0 < l.length := List.length_pos_iff.2 h0
  have hle : l.length ≤ l.countP (fun x => decide (P x)) + l.countP (fun x => decide (Q x)) := by
    have h1 : l.countP (fun x => decide (¬ Q x)) ≤ l.countP fun x => decide (P x) :=
      List.countP_mono_left fun x hx hq => by simpa using hPQ x hx (by simpa using hq)
    have h2 := List.length_eq_countP_add_countP (fun x => decide (Q x)) (l := l)
    have h3 : l.countP (fun x => decide (¬ Q x)) = l.countP fun a => decide ¬decide (Q a) = true := by congr 1; funext a; simp
    omega
  have hq : (l.length : ℚ) * (1 - x) ≤ l.countP fun x => decide (P x) := by
    have : (l.length : ℚ) ≤ l.countP (fun x => decide (P x)) + l.countP (fun x => decide (Q x)) := by exact_mod_cast hle
    linarith
  rw [average_indicator, ENNReal.le_div_iff_mul_le (Or.inl (by exact_mod_cast hl.ne')) (Or.inl (ENNReal.natCast_ne_top _)), ← ENNReal.ofReal_natCast,
    ← ENNReal.ofReal_natCast, ← ENNReal.ofReal_mul' (Nat.cast_nonneg _)]
  refine ENNReal.ofReal_le_ofReal ?_
  have : (((l.length : ℚ) * (1 - x) : ℚ) : ℝ) ≤ ((l.countP fun x => decide (P x) : ℚ) : ℝ) := by exact_mod_cast hq
  push_cast at this ⊢
  linarith

open Classical in
/-- C92: the probability that a run, cancelled after `K t` batches of each thread `t`, finds the equity of player `p` to less than `ε`. -/
theorem C92_accuracy (h : McReady ranges b d s) (hsq : ∀ x, 0 ≤ sqrt x) (ht : target ≤ 0) (hr0 : startResults s = some (r0, flag)) (hnT : 0 < nT)
    (K : Nat → Nat) (hK : ∀ t < nT, 0 < K t) (sched : List Nat) (hs : ∀ t ∈ sched, t < nT) (hc : ∀ t < nT, sched.count t = stepsFor (K t))
    (h8 : ranges.length ≤ 8) (hws : WholeShares ranges b d) {wmin wmax : Nat} (hw0 : 0 < wmin)
    (hw : ∀ dd ∈ deals (specRanges ranges) (maskCards b ++ maskCards d), wmin ≤ Spec.dealWeight dd ∧ Spec.dealWeight dd ≤ wmax)
    {e : ℚ} {p : Nat} (hp : p < ranges.length) (he : equityOf (specRanges ranges) (maskCards b) (maskCards d) p = some e) {ε : ℚ} (hε : 0 < ε) :
    let N := ∑ t ∈ Finset.range nT, K t
    (1 - noDealChance ranges b d s) ^ N * ENNReal.ofReal ((1 - wmax ^ 2 / (4 * N * ε ^ 2 * wmin ^ 2) : ℚ) : ℝ) ≤
      expect (cancelAfter sqrt target s nT sched (McWorld.init s r0 false)) fun w =>
        if (∀ t < nT, (w.locals t).pc = .done) ∧ Within (finishResults s flag w.shared.results) p e ε then 1 else 0 := by
  intro N
  have hbd : ∀ dd ∈ deals (specRanges ranges) (maskCards b ++ maskCards d), boards (maskCards b) (maskCards d) dd ≠ [] := fun _ => h.boards_ne
  have hn := h.fields.1
  have hN : 0 < N := Finset.sum_pos (fun t ht => hK t (Finset.mem_range.1 ht)) ⟨0, Finset.mem_range.2 hnT⟩
  have hgi : Good s b d (McLocal.init s.nPlayers) := good_init s b d fun p _ => rfl
  obtain ⟨g1, _, g3⟩ := h.scheduled_good (sqrt := sqrt) (target := target) (McWorld.init s r0 false) sched (McWorld.init s r0 false) hs fun t _ => hgi
  have hr2 : ∀ t ∈ List.range nT ++ List.range nT, t < nT := fun t ht => by
    rcases List.mem_append.1 ht with ht | ht <;> exact List.mem_range.1 ht
  have step1 : (1 - noDealChance ranges b d s) ^ N * average (runSpace s b d N) (fun sd => if CountsWithin ranges.length (trunc ranges.length (showsFull sd)) p e ε then 1 else 0) ≤
      expect (cancelAfter sqrt target s nT sched (McWorld.init s r0 false)) fun w =>
        if (∀ t < nT, (w.locals t).pc = .done) ∧ Within (finishResults s flag w.shared.results) p e ε then 1 else 0 := by
    rw [← C92_law h hsq ht hr0 K hK sched hs hc fun F => if CountsWithin ranges.length F p e ε then 1 else 0]
    unfold cancelAfter
    rw [expect_bind g1 fun q w hq => (h.scheduled_good (McWorld.init s r0 false) _ w.cancel hr2 (g3 q w hq).1).2.1]
    refine expect_mono fun q w hq => ?_
    by_cases hch : ∀ t < nT, (w.locals t).pc = .check
    swap
    · rw [if_neg hch]; exact zero_le
    rw [if_pos hch]
    by_cases hcw : CountsWithin ranges.length (trunc ranges.length (resFull w.shared.results)) p e ε
    swap
    · rw [if_neg hcw]; exact zero_le
    rw [if_pos hcw]
    have hst := (g3 q w hq).2 .refl
    have hst' : McSteps sqrt target s nT (McWorld.init s r0 false) w.cancel := .step hst (.cancel w)
    obtain ⟨hist, Dr, Dl, hi, _⟩ := McInv.steps_tracks h hst
    have hun : ∀ t < nT, Unused s (w.locals t) := fun t ht => by
      have hl := hi.len t ht
      rw [hch t ht] at hl
      have := hi.fresh t ht (List.length_eq_zero_iff.1 hl)
      exact ⟨congrArg Prod.fst this, congrArg Prod.snd this⟩
    obtain ⟨w2, f1, f2, f3⟩ := ending (sqrt := sqrt) (target := target) (s := s) hn (List.range nT ++ List.range nT)
      w.cancel hr2 rfl fun t ht => ⟨Or.inl (hch t ht), hun t ht⟩
    have hst2 := ((h.scheduled_good (sqrt := sqrt) (target := target) (McWorld.init s r0 false) _ w.cancel hr2 (g3 q w hq).1).2.2 [] w2 (by rw [f1]; rfl)).2 hst'
    rw [f1, expect_ret, if_pos]
    refine ⟨fun t ht => f3 t ht ?_, within_of_counts h hr0 h8 hws hst2 hp ?_⟩
    · rw [List.count_append, List.count_range, if_pos ht]
      omega
    · rw [hn] at f2
      rw [f2]
      exact hcw
  refine le_trans (mul_le_mul_right ?_ _) step1
  have hne : runSpace s b d N ≠ [] := by
    have hD0 : deals (specRanges ranges) (maskCards b ++ maskCards d) ≠ [] := fun e0 => by
      have := (exact_mean h.wf hbd he).1
      rw [e0] at this
      exact absurd this (lt_irrefl 0)
    obtain ⟨B, hB⟩ := List.exists_mem_of_ne_nil (batchSpace s b d) (by exact (h.balanced hD0 hbd).space_ne)
    exact List.ne_nil_of_mem (mem_runSpace.2 ⟨List.replicate N B, List.length_replicate .., fun C hC => by rw [List.eq_of_mem_replicate hC]; exact hB, rfl⟩)
  refine average_within hne (Q := fun sd => ε ≤ |equityIn sd p - e|) (fun sd hsd hq => ?_) (C91_batches h hbd hN hw0 hw he hε)
  obtain ⟨hl, hm⟩ := runSpace_mem h hsd
  rw [countsWithin_iff (fun x hx => (deals_wf h.wf (hm x hx)).1) h8]
  refine ⟨?_, not_le.1 hq⟩
  obtain ⟨x, hx⟩ := List.exists_mem_of_ne_nil sd (by rintro rfl; simp at hl; omega)
  exact totalWeight_pos hx (hw0.trans_le (hw _ (hm x hx)).1)

/-! ## The total probability -/

theorem expect_bind_one {α β : Type} {f : Draws → Out α} {g : α → Draws → Out β} (hf : Reads f) (hg : ∀ q a, f q = .ok a [] → CanEnd (g a) ∧ expect (g a) (fun _ => 1) = 1) :
    expect (bindD f g) (fun _ => 1) = expect f fun _ => 1 := by
  rw [expect_bind hf fun q a e => (hg q a e).1]
  exact expect_congr fun q a e => (hg q a e).2

theorem expect_bind_ret {α β : Type} {f : Draws → Out α} {g : α → β} (hf : Reads f) :
    expect (bindD f fun a => retD (g a)) (fun _ => 1) = expect f fun _ => 1 :=
  expect_bind_one hf fun _ _ _ => ⟨CanEnd.ret _, expect_ret _ _⟩

theorem McReady.total_attempts (h : McReady ranges b d s) {w : Walk} (hw : Outside s.combinedRanges w) (k : Nat) :
    expect (attempts s k w) (fun _ => 1) = 1 := by
  have hm := misses_add s.combinedRanges (b ||| d) h.drawable
  rw [expect_attempts h (F := fun _ => 1) (c := 1) (fun _ _ => rfl) (fun _ _ _ _ _ _ _ _ => rfl) k w hw, List.map_const', List.sum_replicate, nsmul_eq_mul, mul_one,
    mul_one]
  generalize (drawCount s.combinedRanges : ℝ≥0∞)⁻¹ * ((legalIdxs s.combinedRanges (b ||| d)).length : ℝ≥0∞) = a at *
  generalize misses s.combinedRanges (b ||| d) = m at *
  induction k with
  | zero => simp
  | succ k ih =>
    rw [Finset.sum_range_succ, add_mul, pow_succ, add_assoc, ← mul_add, hm, mul_one]
    exact ih

/-- The probabilities of what a step of a thread draws add up to 1. -/
theorem McReady.total_step (h : McReady ranges b d s) {l : McLocal} (hl : Good s b d l) (g : McShared) :
    expect (mcStep sqrt target s l g) (fun _ => 1) = 1 := by
  cases hpc : l.pc with
  | start =>
    rw [h.step_start g hl.outside hpc, expect_bind_ret (attempts_reads s _ _)]
    exact h.total_attempts hl.outside _
  | restart =>
    rw [h.step_restart g hl.outside hpc, expect_bind_ret (attempts_reads s _ _)]
    exact h.total_attempts hl.outside _
  | eval =>
    obtain ⟨x, hx⟩ := hl.stands (Or.inl hpc)
    rw [h.step_eval g hpc, expect_bind_ret (randomizeBoard_reads _ _ _), h.expect_board hx, average_const]
    obtain ⟨picks, hw⟩ := hx.ok
    exact h.boards_ne (h.atDealAt hw hx.outside hx.points hx.length).2
  | move =>
    rw [step_move g hpc, expect_bind_ret (sample_reads _), expect_sample]
    rw [Finset.sum_const, Finset.card_range, nsmul_eq_mul, mul_one, ENNReal.inv_mul_cancel (by exact_mod_cast h.nonempty.ne') (ENNReal.natCast_ne_top _)]
  | flush => rw [step_flush g hpc, expect_ret]
  | check => rw [step_check g hpc, expect_ret]
  | final => rw [step_final g hpc, expect_ret]
  | done => rw [step_done g hpc, expect_ret]
  | panicked => exact absurd hpc hl.calm

/-- C92: the probabilities of all that the threads draw in their steps add up to 1: with probability 1 every step ends, although nothing bounds the
number of cards that are drawn for a board. -/
theorem C92_total (h : McReady ranges b d s) : ∀ (sched : List Nat) (w : McWorld), (∀ t ∈ sched, t < nT) → (∀ t < nT, Good s b d (w.locals t)) →
    expect (scheduled sqrt target s sched w) (fun _ => 1) = 1
  | [], w, _, _ => expect_ret _ _
  | t :: ts, w, hs, hw => by
    have htT := hs t (List.mem_cons_self ..)
    obtain ⟨r1, _, r3⟩ := h.good_step (sqrt := sqrt) (target := target) (hw t htT) w.shared
    have hs' : ∀ u ∈ ts, u < nT := fun u hu => hs u (List.mem_cons_of_mem _ hu)
    have hg : ∀ q y, mcStep sqrt target s (w.locals t) w.shared q = .ok y [] → ∀ u < nT, Good s b d (Function.update w.locals t y.1 u) := fun q y e u hu => by
      by_cases hut : u = t
      · rw [hut, Function.update_self]; exact r3 q y e
      · rw [Function.update_of_ne hut]; exact hw u hu
    refine (expect_bind_one r1 fun q y e => ⟨?_, ?_⟩).trans (h.total_step (hw t htT) w.shared)
    · exact (h.scheduled_good w ts _ hs' (hg q y e)).2.1
    · exact C92_total h ts _ hs' (hg q y e)

/-- C92: and so do those of a whole run that is cancelled. -/
theorem C92_total_run (h : McReady ranges b d s) (sched : List Nat) (hs : ∀ t ∈ sched, t < nT) (cancelled : Bool) :
    expect (cancelAfter sqrt target s nT sched (McWorld.init s r0 cancelled)) (fun _ => 1) = 1 := by
  have hgi : Good s b d (McLocal.init s.nPlayers) := good_init s b d fun p _ => rfl
  obtain ⟨g1, _, g3⟩ := h.scheduled_good (sqrt := sqrt) (target := target) (nT := nT) (McWorld.init s r0 cancelled) sched (McWorld.init s r0 cancelled) hs fun t _ => hgi
  have hr2 : ∀ t ∈ List.range nT ++ List.range nT, t < nT := fun t ht => by
    rcases List.mem_append.1 ht with ht | ht <;> exact List.mem_range.1 ht
  unfold cancelAfter
  rw [expect_bind_one g1 fun q w hq => ⟨(h.scheduled_good w _ w.cancel hr2 (g3 q w hq).1).2.1, C92_total h _ w.cancel hr2 (g3 q w hq).1⟩]
  exact C92_total h sched _ hs fun t _ => hgi

/-! ## The chance of no deal -/

/-- C92: if a deal exists, it is not certain that none is found. -/
theorem C92_deal_found (s : Sim) (hne : deals (specRanges ranges) (maskCards b ++ maskCards d) ≠ []) : noDealChance ranges b d s < 1 := by
  unfold noDealChance
  refine pow_lt_one₀ zero_le (ENNReal.sub_lt_self ENNReal.one_ne_top one_ne_zero (ENNReal.div_ne_zero.2 ⟨?_, ENNReal.natCast_ne_top _⟩)) (by decide)
  exact_mod_cast (List.length_pos_iff.2 hne).ne'

/-- C92: if all ranges were joined, the first attempt finds a deal. -/
theorem C92_single (h : McReady ranges b d s) (h1 : s.combinedRanges.length = 1) : noDealChance ranges b d s = 0 := by
  obtain ⟨cr, hcr⟩ := List.length_eq_one_iff.1 h1
  have hd := h.drawable
  have hf : ∀ c ∈ cr.combos, (b ||| d) &&& c.mask = 0 := fun c hc => h.free_combo (by rw [hcr]; simp) hc
  rw [hcr] at hd
  have hl : (legalIdxs [cr] (b ||| d)).length = cr.combos.length := by
    have : legalIdxs [cr] (b ||| d) = (List.range cr.combos.length).flatMap fun k => [[k]] := by
      refine List.flatMap_congr fun k hk => ?_
      rw [List.getElem?_eq_getElem (List.mem_range.1 hk)]
      simp [hf _ (List.getElem_mem (List.mem_range.1 hk)), legalIdxs]
    rw [this]
    simp
  have hl' : (deals (specRanges ranges) (maskCards b ++ maskCards d)).length = cr.size := by
    rw [← h.dealAt_perm.length_eq, List.length_map, hcr, hl, (hd cr (by simp)).1]
  unfold noDealChance
  rw [hl', hcr]
  simp only [List.map_cons, List.map_nil, List.prod_cons, List.prod_nil, mul_one]
  rw [ENNReal.div_self (by exact_mod_cast (hd cr (by simp)).2.ne') (ENNReal.natCast_ne_top _), tsub_self, zero_pow (by decide)]

/-- There is a prepared calculation with empty results for valid input with a deal. -/
theorem ready_of_deal (hwf : ∀ r ∈ ranges, WfRange r) (hb : CardMask b) (hd : CardMask d) (hv : validate ranges.length b d = none)
    (hdeal : deals (specRanges ranges) (maskCards b ++ maskCards d) ≠ []) :
    ∃ s r0 flag, McReady ranges b d s ∧ startResults s = some (r0, flag) := by
  obtain ⟨s0, hs0⟩ := prepare_of_deal hwf hb hd hv hdeal
  obtain ⟨s, hp⟩ := C39_approx_ok hs0
  have h : McReady ranges b d s := ⟨hwf, hb, hd, hp⟩
  obtain ⟨s0, hs0, _, hs⟩ := h.exact
  have ha := prepareExact_ok hs0
  obtain ⟨r0, flag, hst⟩ := start_some_of (d := d) hwf (s := s) h.fields.2.1 h.fields.2.2.2.2.2.2.2.2.2 (by rw [hs, ha.sim]; rfl)
  exact ⟨s, r0, flag, h, hst⟩

open Classical in
/-- Two hands that win equally often on the river: one thread, cancelled after 2500 batches, is off by less than a tenth with a probability of at
least 99 percent. -/
theorem C92_even (hsq : ∀ x, 0 ≤ sqrt x) (ht : target ≤ 0) :
    (∃ s r0 flag, McReady evenRanges evenBoard 0 s ∧ startResults s = some (r0, flag)) ∧
    ∀ s r0 flag, McReady evenRanges evenBoard 0 s → startResults s = some (r0, flag) →
      ENNReal.ofReal (99 / 100) ≤ expect (cancelAfter sqrt target s 1 (List.replicate (stepsFor 2500) 0) (McWorld.init s r0 false)) fun w =>
        if (∀ t < 1, (w.locals t).pc = .done) ∧ Within (finishResults s flag w.shared.results) 0 (1 / 2) (1 / 10) then 1 else 0 := by
  have hwf := even_wf
  have hb := even_deck
  have hs := even_single
  have h8 : evenRanges.length ≤ 8 := by decide
  have h0 : 0 < evenRanges.length := by decide
  have hv : validate evenRanges.length evenBoard 0 = none := by decide +kernel
  have hD := even_deals
  have hw : Spec.dealWeight [⟨4, 5, 100⟩, ⟨15, 35, 100⟩] = 10000 := by decide
  have hF := even_facts
  have hWh := even_whole
  generalize evenRanges = rs at *
  generalize evenBoard = bd at *
  generalize ([⟨4, 5, 100⟩, ⟨15, 35, 100⟩] : List WHand) = dd at *
  refine ⟨ready_of_deal hwf hb zero_deck hv (by rw [hD]; simp), fun s r0 flag h hr0 => ?_⟩
  have := C92_accuracy h hsq ht hr0 (nT := 1) (by decide) (fun _ => 2500) (fun _ _ => by decide) (List.replicate (stepsFor 2500) 0)
    (fun t ht => by rw [List.eq_of_mem_replicate ht]; decide)
    (fun t ht => by
      obtain rfl : t = 0 := by omega
      rw [List.count_replicate_self]) h8 hWh
    (wmin := 10000) (wmax := 10000) (by decide)
    (fun d' hd' => by
      rw [hD, List.mem_singleton] at hd'
      rw [hd', hw]
      exact ⟨le_rfl, le_rfl⟩) h0 hF.2.2.2.2 (ε := 1 / 10) (by norm_num)
  refine le_trans (le_of_eq ?_) this
  rw [C92_single h (by rw [h.crs_length, hs]), tsub_zero, one_pow, one_mul]
  congr 1
  rw [Finset.sum_const, Finset.card_range]
  norm_num

end Pokers
