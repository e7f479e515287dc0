import Verif.Proofs.ChanceBatch
/-!
Several threads, each with its own draws, and their batches.
-/
namespace Pokers

open Spec
open scoped ENNReal

variable {α β γ : Type}

/-! ## Independent programs -/

theorem contribution_mul (f : Draws → Out α) (φ : α → ℝ≥0∞) (ds : Draws) : contribution f φ ds =
    match f ds with
    | .ok a [] => chance f ds * φ a
    | _ => 0 := by
  rfl

theorem contribution_tsum {ι : Type} (f : Draws → Out α) (φ : ι → α → ℝ≥0∞) (ds : Draws) :
    contribution f (fun a => ∑' i, φ i a) ds = ∑' i, contribution f (φ i) ds := by
  by_cases h : ∃ a, f ds = .ok a []
  · obtain ⟨a, h⟩ := h
    rw [contribution_of _ h, ← ENNReal.tsum_mul_left]
    exact tsum_congr fun i => (contribution_of _ h).symm
  · push Not at h
    rw [contribution_not _ h]
    simp only [contribution_not _ h, tsum_zero]

theorem expect_comm (f : Draws → Out α) (g : Draws → Out β) (φ : α → β → ℝ≥0∞) :
    (expect f fun a => expect g fun c => φ a c) = expect g fun c => expect f fun a => φ a c := by
  have key : ∀ ds, contribution f (fun a => expect g fun c => φ a c) ds = ∑' ds', contribution g (fun c => contribution f (fun a => φ a c) ds) ds' := by
    intro ds
    by_cases h : ∃ a, f ds = .ok a []
    · obtain ⟨a, h⟩ := h
      rw [contribution_of _ h]
      simp only [contribution_of _ h]
      rw [show (expect g fun c => φ a c) = ∑' ds', contribution g (fun c => φ a c) ds' from rfl, ← ENNReal.tsum_mul_left]
      refine tsum_congr fun ds' => ?_
      by_cases h' : ∃ c, g ds' = .ok c []
      · obtain ⟨c, h'⟩ := h'
        rw [contribution_of _ h', contribution_of _ h']
        ring
      · push Not at h'
        rw [contribution_not _ h', contribution_not _ h', mul_zero]
    · push Not at h
      rw [contribution_not _ h]
      simp only [contribution_not _ h]
      have : ∀ ds', contribution g (fun _ => (0 : ℝ≥0∞)) ds' = 0 := fun ds' => by
        by_cases h' : ∃ c, g ds' = .ok c []
        · obtain ⟨c, h'⟩ := h'
          rw [contribution_of _ h', mul_zero]
        · push Not at h'
          rw [contribution_not _ h']
      simp only [this, tsum_zero]
  show ∑' ds, contribution f (fun a => expect g fun c => φ a c) ds = ∑' ds', contribution g (fun c => ∑' ds, contribution f (fun a => φ a c) ds) ds'
  simp only [key, contribution_tsum]
  exact ENNReal.tsum_comm

/-- The programs `P t`, each with its own draws. -/
noncomputable def together (P : Nat → Draws → Out γ) (Ψ : (Nat → γ) → ℝ≥0∞) : Nat → (Nat → γ) → ℝ≥0∞
  | 0, f => Ψ f
  | T + 1, f => expect (P T) fun y => together P Ψ T (Function.update f T y)

theorem together_congr {P Q : Nat → Draws → Out γ} (Ψ : (Nat → γ) → ℝ≥0∞) : ∀ (T : Nat) (f : Nat → γ), (∀ t < T, P t = Q t) →
    together P Ψ T f = together Q Ψ T f
  | 0, f, _ => rfl
  | T + 1, f, h => by
    show expect (P T) _ = expect (Q T) _
    rw [h T (by omega)]
    exact expect_congr fun _ _ _ => together_congr Ψ T _ fun t ht => h t (by omega)

theorem together_step {P : Nat → Draws → Out γ} (Ψ : (Nat → γ) → ℝ≥0∞) {t : Nat} {a : Draws → Out α} {k : α → Draws → Out γ} (h1 : Reads a)
    (h2 : ∀ q z, a q = .ok z [] → CanEnd (k z)) (hP : P t = bindD a k) : ∀ (T : Nat) (f : Nat → γ), t < T →
    together P Ψ T f = expect a fun z => together (Function.update P t (k z)) Ψ T f
  | 0, _, h => absurd h (Nat.not_lt_zero _)
  | T + 1, f, h => by
    show expect (P T) _ = expect a fun z => expect (Function.update P t (k z) T) fun y => together (Function.update P t (k z)) Ψ T (Function.update f T y)
    by_cases htT : t = T
    · subst htT
      rw [hP, expect_bind h1 h2]
      refine expect_congr fun q z _ => ?_
      rw [Function.update_self]
      exact expect_congr fun _ _ _ => together_congr Ψ t _ fun u hu => by rw [Function.update_of_ne (by omega)]
    · have e : ∀ z, Function.update P t (k z) T = P T := fun z => Function.update_of_ne (by omega) _ _
      simp only [e]
      rw [expect_comm]
      exact expect_congr fun q y _ => together_step Ψ h1 h2 hP T _ (by omega)

theorem together_ret {P : Nat → Draws → Out γ} (Ψ : (Nat → γ) → ℝ≥0∞) (y : Nat → γ) : ∀ (T : Nat) (f : Nat → γ), (∀ t < T, P t = retD (y t)) →
    together P Ψ T f = Ψ fun t => if t < T then y t else f t
  | 0, f, _ => by simp [together]
  | T + 1, f, h => by
    show expect (P T) _ = _
    rw [h T (by omega), expect_ret, together_ret Ψ y T _ fun t ht => h t (by omega)]
    congr 1
    funext t
    by_cases h1 : t < T
    · rw [if_pos h1, if_pos (by omega)]
    · rw [if_neg h1]
      by_cases h2 : t = T
      · subst h2; rw [Function.update_self, if_pos (by omega)]
      · rw [Function.update_of_ne h2, if_neg (by omega)]

theorem together_zero {P : Nat → Draws → Out γ} {Ψ : (Nat → γ) → ℝ≥0∞} : ∀ (T : Nat) (f : Nat → γ), (∀ f', (∀ t, T ≤ t → f' t = f t) → Ψ f' = 0) →
    together P Ψ T f = 0
  | 0, f, h => h f fun _ _ => rfl
  | T + 1, f, h => by
    show expect (P T) _ = 0
    have : ∀ q y, P T q = .ok y [] → together P Ψ T (Function.update f T y) = 0 := fun q y _ => by
      refine together_zero T _ fun f' hf' => ?_
      by_cases hy : Ψ f' = 0
      · exact hy
      · exact h f' fun t ht => by rw [hf' t (by omega), Function.update_of_ne (by omega)]
    rw [expect_congr this]
    show ∑' ds, contribution (P T) (fun _ => (0 : ℝ≥0∞)) ds = 0
    refine ENNReal.tsum_eq_zero.2 fun ds => ?_
    by_cases h' : ∃ c, P T ds = .ok c []
    · obtain ⟨c, h'⟩ := h'
      rw [contribution_of _ h', mul_zero]
    · push Not at h'
      rw [contribution_not _ h']

/-! ## Averages over several batches -/

theorem average_mul (l : List α) (c : ℝ≥0∞) (f : α → ℝ≥0∞) : (average l fun x => c * f x) = c * average l f := by
  unfold average
  rw [List.sum_map_mul_left]
  ring

theorem average_append (rs qs : List (List α)) (f : List α → ℝ≥0∞) :
    average (choices (rs ++ qs)) f = average (choices rs) fun x => average (choices qs) fun y => f (x ++ y) := by
  induction rs generalizing f with
  | nil =>
    show average (choices qs) f = average [[]] _
    unfold average
    simp
  | cons r rs ih =>
    rw [List.cons_append, average_choices, average_choices]
    exact average_congr fun h _ => ih _

variable {ranges : List (List Combo)} {b d : Nat} {s : Sim}

theorem average_runSpace_zero (f : List (List WHand × List Nat) → ℝ≥0∞) : average (runSpace s b d 0) f = f [] := by
  show average [[]] f = _
  unfold average
  simp

theorem average_runSpace_add (a c : Nat) (f : List (List WHand × List Nat) → ℝ≥0∞) :
    average (runSpace s b d (a + c)) f = average (runSpace s b d a) fun x => average (runSpace s b d c) fun y => f (x ++ y) := by
  unfold runSpace
  rw [List.replicate_add, average_map, average_append, average_map]
  refine average_congr fun x _ => ?_
  rw [average_map]
  exact average_congr fun y _ => by rw [List.flatten_append]

theorem average_runSpace_one (f : List (List WHand × List Nat) → ℝ≥0∞) : average (runSpace s b d 1) f = average (batchSpace s b d) f := by
  unfold runSpace
  rw [average_map]
  show average (choices [batchSpace s b d]) _ = _
  rw [average_choices]
  refine average_congr fun x _ => ?_
  show average [[]] _ = _
  unfold average
  simp

section
variable {g0 : McShared}

/-- The batches of a thread after the first. -/
theorem McReady.expect_later (h : McReady ranges b d s) (hg : g0.stopped = false) {Φ : McLocal × FT → ℝ≥0∞} {ψ : FT → ℝ≥0∞}
    (hΦ : ∀ l' F', Good s b d l' → Unused s l' → l'.pc = .check → Φ (l', F') = ψ F') (h0 : ∀ l F, Good s b d l → l.pc = .done → Φ (l, F) = 0) :
    ∀ (K : Nat) {l : McLocal} {F : FT}, Good s b d l → l.pc = .check → Unused s l → expect (solo s g0 (8195 * K) (l, F)) Φ =
      (1 - misses s.combinedRanges (b ||| d) ^ 1000) ^ K * average (runSpace s b d K) fun sd => ψ (F + trunc s.nPlayers (showsFull sd))
  | 0, l, F, hl, hpc, hf => by
    rw [pow_zero, one_mul, average_runSpace_zero, showsFull_nil, map_zero, add_zero]
    exact (expect_ret _ _).trans (hΦ l F hl hf hpc)
  | K + 1, l, F, hl, hpc, hf => by
    rw [show 8195 * (K + 1) = 8195 + 8195 * K by ring, h.expect_solo_add _ _ _ hl]
    refine (h.expect_next hg (Φ := fun y => expect (solo s g0 (8195 * K) y) Φ)
      (ψ := fun F' => (1 - misses s.combinedRanges (b ||| d) ^ 1000) ^ K * average (runSpace s b d K) fun sd => ψ (F' + trunc s.nPlayers (showsFull sd)))
      (fun l' F' g1 g2 g3 => h.expect_later hg hΦ h0 K g1 g3 g2) (fun l' F' g e => h.expect_done h0 _ g e) hl hpc hf).trans ?_
    · rw [average_mul, ← mul_assoc, ← pow_succ', show K + 1 = 1 + K by omega, average_runSpace_add, average_runSpace_one]
      congr 1
      refine average_congr fun x _ => average_congr fun y _ => ?_
      rw [showsFull_append, map_add, add_assoc]

/-- The number of steps that a thread needs for `K` batches, with the updates of the results. -/
def stepsFor (K : Nat) : Nat := 8195 * K - 2

/-- All batches of a thread. -/
theorem McReady.expect_batches (h : McReady ranges b d s) (hg : g0.stopped = false) {Φ : McLocal × FT → ℝ≥0∞} {ψ : FT → ℝ≥0∞}
    (hΦ : ∀ l' F', Good s b d l' → Unused s l' → l'.pc = .check → Φ (l', F') = ψ F') (h0 : ∀ l F, Good s b d l → l.pc = .done → Φ (l, F) = 0)
    {K : Nat} (hK : 0 < K) {l : McLocal} {F : FT} (hl : Good s b d l) (hpc : l.pc = .start) (hf : Unused s l) : expect (solo s g0 (stepsFor K) (l, F)) Φ =
      (1 - misses s.combinedRanges (b ||| d) ^ 1000) ^ K * average (runSpace s b d K) fun sd => ψ (F + trunc s.nPlayers (showsFull sd)) := by
  obtain ⟨K, rfl⟩ : ∃ k, K = k + 1 := ⟨K - 1, by omega⟩
  rw [show stepsFor (K + 1) = 8193 + 8195 * K by unfold stepsFor; omega, h.expect_solo_add _ _ _ hl]
  refine (h.expect_first (Φ := fun y => expect (solo s g0 (8195 * K) y) Φ)
    (ψ := fun F' => (1 - misses s.combinedRanges (b ||| d) ^ 1000) ^ K * average (runSpace s b d K) fun sd => ψ (F' + trunc s.nPlayers (showsFull sd)))
    (fun l' F' g1 g2 g3 => h.expect_later hg hΦ h0 K g1 g3 g2) (fun l' F' g e => h.expect_done h0 _ g e) hl hpc hf).trans ?_
  rw [average_mul, ← mul_assoc, ← pow_succ', show K + 1 = 1 + K by omega, average_runSpace_add, average_runSpace_one]
  congr 1
  refine average_congr fun x _ => average_congr fun y _ => ?_
  rw [showsFull_append, map_add, add_assoc]

theorem good_init (s : Sim) (b d : Nat) (hs : Outside s.combinedRanges Walk.init) : Good s b d (McLocal.init s.nPlayers) :=
  ⟨hs, by simp [McLocal.init], by simp [McLocal.init], batchInit_ids _⟩

/-- The batches of several threads. -/
theorem McReady.expect_together (h : McReady ranges b d s) (hg : g0.stopped = false) (K : Nat → Nat) {l : McLocal} (hl : Good s b d l) (hpc : l.pc = .start)
    (hu : Unused s l) (Ψ : (Nat → McLocal × FT) → ℝ≥0∞) : ∀ (T : Nat) (φ : FT → ℝ≥0∞) (f : Nat → McLocal × FT), (∀ t < T, 0 < K t) →
    (∀ f', (∀ t, T ≤ t → f' t = f t) → (∀ t < T, (f' t).1.pc = .check) → Ψ f' = φ (∑ t ∈ Finset.range T, (f' t).2)) →
    (∀ f', (∀ t, T ≤ t → f' t = f t) → (∃ t < T, (f' t).1.pc = .done) → Ψ f' = 0) →
    together (fun t => solo s g0 (stepsFor (K t)) (l, 0)) Ψ T f =
      (1 - misses s.combinedRanges (b ||| d) ^ 1000) ^ (∑ t ∈ Finset.range T, K t) *
        average (runSpace s b d (∑ t ∈ Finset.range T, K t)) fun sd => φ (trunc s.nPlayers (showsFull sd))
  | 0, φ, f, _, h1, _ => by
    rw [Finset.sum_range_zero, pow_zero, one_mul, average_runSpace_zero, showsFull_nil, map_zero]
    exact (h1 f (fun _ _ => rfl) (by simp)).trans (by simp)
  | T + 1, φ, f, hK, h1, h2 => by
    show expect (solo s g0 (stepsFor (K T)) (l, 0)) _ = _
    rw [h.expect_batches hg (ψ := fun F => (1 - misses s.combinedRanges (b ||| d) ^ 1000) ^ (∑ t ∈ Finset.range T, K t) *
        average (runSpace s b d (∑ t ∈ Finset.range T, K t)) fun sd => φ (trunc s.nPlayers (showsFull sd) + F)) (fun l' F' g1 g2 g3 => ?_) (fun l' F' g e => ?_)
      (hK T (by omega)) hl hpc hu, average_mul, ← mul_assoc, ← pow_add, Finset.sum_range_succ, add_comm (∑ t ∈ Finset.range T, K t), average_runSpace_add]
    · congr 1
      refine average_congr fun x _ => average_congr fun y _ => ?_
      rw [showsFull_append, map_add, zero_add, add_comm]
    · refine h.expect_together hg K hl hpc hu Ψ T (fun F => φ (F + F')) _ (fun t ht => hK t (by omega)) (fun f' e1 e2 => ?_) (fun f' e1 e2 => ?_)
      · have eT : f' T = (l', F') := by rw [e1 T (le_refl _), Function.update_self]
        rw [h1 f' (fun t ht => by rw [e1 t (by omega), Function.update_of_ne (by omega)]) fun t ht => ?_, Finset.sum_range_succ, eT]
        by_cases htT : t = T
        · rw [htT, eT]; exact g3
        · exact e2 t (by omega)
      · obtain ⟨t, ht, e2⟩ := e2
        exact h2 f' (fun t ht => by rw [e1 t (by omega), Function.update_of_ne (by omega)]) ⟨t, by omega, e2⟩
    · refine together_zero T _ fun f' e1 => ?_
      have eT : f' T = (l', F') := by rw [e1 T (le_refl _), Function.update_self]
      exact h2 f' (fun t ht => by rw [e1 t (by omega), Function.update_of_ne (by omega)]) ⟨T, by omega, by rw [eT]; exact e⟩

end

/-! ## Threads that take turns -/

section
variable {sqrt : ℚ → ℚ} {target : ℚ} {g0 : McShared} {nT : Nat}

/-- The threads make steps in the order `sched`, and nobody else touches the cancel token. -/
def scheduled (sqrt : ℚ → ℚ) (target : ℚ) (s : Sim) : List Nat → McWorld → Draws → Out McWorld
  | [], w => retD w
  | t :: ts, w => bindD (mcStep sqrt target s (w.locals t) w.shared) fun y =>
      scheduled sqrt target s ts { locals := Function.update w.locals t y.1, shared := y.2 }

/-- The state of the threads and the shared results, with the account `acc` of what the threads have handed over. -/
structure Accounts (s : Sim) (b d nT : Nat) (F0 : FT) (w : McWorld) (acc : Nat → FT) : Prop where
  good : ∀ t < nT, Good s b d (w.locals t)
  running : w.shared.stopped = false
  count : 0 ≤ w.shared.results.batchCount
  sum : trunc s.nPlayers (resFull w.shared.results) = F0 + ∑ t ∈ Finset.range nT, acc t

theorem updateResults_count (sqrt : ℚ → ℚ) (n : Nat) (bt : Batch) (hb : HandStats) (r : Results) : (updateResults sqrt n false bt hb r).batchCount = r.batchCount + 1 ∧
    ∃ x, (updateResults sqrt n false bt hb r).stdev = sqrt x / (r.batchCount + 1) := ⟨rfl, _, rfl⟩

/-- A step of a thread. -/
theorem Accounts.step (h : McReady ranges b d s) (hsq : ∀ x, 0 ≤ sqrt x) (ht : target ≤ 0) {F0 : FT} {w : McWorld} {acc : Nat → FT}
    (ha : Accounts s b d nT F0 w acc) {t : Nat} (htT : t < nT) {l' : McLocal} (hl' : Good s b d l') :
    Accounts s b d nT F0 { locals := Function.update w.locals t l', shared := sharedAfter sqrt target s (w.locals t) w.shared }
      (Function.update acc t (acc t + flushed s (w.locals t))) := by
  have hex := h.fields.2.2.2.2.1
  have hup : ∀ fin, (w.shared.update sqrt target s fin (w.locals t)).stopped = false ∧ 0 ≤ (w.shared.update sqrt target s fin (w.locals t)).results.batchCount ∧
      trunc s.nPlayers (resFull (w.shared.update sqrt target s fin (w.locals t)).results) =
        trunc s.nPlayers (resFull w.shared.results) + trunc s.nPlayers (full ((w.locals t).stats, (w.locals t).hands)) := by
    intro fin
    obtain ⟨u1, x, u2⟩ := updateResults_count sqrt s.nPlayers (w.locals t).stats (w.locals t).hands w.shared.results
    have hc := ha.count
    refine ⟨?_, ?_, ?_⟩
    · show (if fin = false ∧ (updateResults sqrt s.nPlayers s.calcExact (w.locals t).stats (w.locals t).hands w.shared.results).stdev < target then true
        else w.shared.stopped) = false
      rw [if_neg, ha.running]
      rintro ⟨_, hlt⟩
      rw [hex, u2] at hlt
      have : 0 ≤ sqrt x / (w.shared.results.batchCount + 1) := div_nonneg (hsq x) (by linarith)
      linarith
    · show 0 ≤ (updateResults sqrt s.nPlayers s.calcExact (w.locals t).stats (w.locals t).hands w.shared.results).batchCount
      rw [hex, u1]
      linarith
    · exact resFull_update sqrt s.nPlayers s.calcExact ((w.locals t).stats, (w.locals t).hands) w.shared.results (ha.good t htT).ids
  have hsum : ∀ x : FT, F0 + ∑ u ∈ Finset.range nT, Function.update acc t (acc t + x) u = (F0 + ∑ u ∈ Finset.range nT, acc u) + x := by
    intro x
    have hm : t ∈ Finset.range nT := Finset.mem_range.2 htT
    have he : ∑ u ∈ (Finset.range nT).erase t, Function.update acc t (acc t + x) u = ∑ u ∈ (Finset.range nT).erase t, acc u :=
      Finset.sum_congr rfl fun u hu => by rw [Function.update_of_ne (Finset.ne_of_mem_erase hu)]
    rw [← Finset.add_sum_erase _ _ hm, ← Finset.add_sum_erase _ acc hm, Function.update_self, he]
    abel
  refine ⟨fun u hu => ?_, ?_, ?_, ?_⟩
  · show Good s b d (Function.update w.locals t l' u)
    by_cases hut : u = t
    · rw [hut, Function.update_self]; exact hl'
    · rw [Function.update_of_ne hut]; exact ha.good u hu
  · show (sharedAfter sqrt target s (w.locals t) w.shared).stopped = false
    unfold sharedAfter
    split
    · exact (hup _).1
    · exact (hup _).1
    · exact ha.running
  · show 0 ≤ (sharedAfter sqrt target s (w.locals t) w.shared).results.batchCount
    unfold sharedAfter
    split
    · exact (hup _).2.1
    · exact (hup _).2.1
    · exact ha.count
  · show trunc s.nPlayers (resFull (sharedAfter sqrt target s (w.locals t) w.shared).results) = _
    rw [hsum, ← ha.sum]
    unfold sharedAfter flushed
    split
    · rename_i hp
      rw [(hup _).2.2, if_pos (Or.inl hp)]
    · rename_i hp
      rw [(hup _).2.2, if_pos (Or.inr hp)]
    · rename_i h1 h2
      rw [if_neg (by rintro (e | e); exacts [h1 e, h2 e]), add_zero]

theorem McReady.scheduled_ends (h : McReady ranges b d s) (hsq : ∀ x, 0 ≤ sqrt x) (ht : target ≤ 0) (hg : g0.stopped = false) {F0 : FT} :
    ∀ (sched : List Nat) (w : McWorld) (acc : Nat → FT), (∀ t ∈ sched, t < nT) → Accounts s b d nT F0 w acc → CanEnd (scheduled sqrt target s sched w)
  | [], w, _, _, _ => CanEnd.ret w
  | t :: ts, w, acc, hs, ha => by
    have htT := hs t (List.mem_cons_self ..)
    obtain ⟨r1, r2, r3⟩ := h.good_step (sqrt := id) (target := 0) (ha.good t htT) g0
    show CanEnd (bindD (mcStep sqrt target s (w.locals t) w.shared) _)
    rw [step_solo (ha.running.trans hg.symm)]
    refine CanEnd.bind (r1.bind fun _ _ _ _ => Reads.ret _) (CanEnd.bind r1 r2 fun _ _ _ => CanEnd.ret _) fun q z e => ?_
    obtain ⟨a, r, e1, e2⟩ := bindD_ok e
    injection e2 with e2 e3
    subst e3
    rw [← e2]
    exact h.scheduled_ends hsq ht hg ts _ _ (fun u hu => hs u (List.mem_cons_of_mem _ hu)) (ha.step h hsq ht htT (r3 q a e1))

/-- With a fixed order of the steps the threads are independent. -/
theorem McReady.expect_scheduled (h : McReady ranges b d s) (hsq : ∀ x, 0 ≤ sqrt x) (ht : target ≤ 0) (hg : g0.stopped = false) {F0 : FT}
    {Φ : McWorld → ℝ≥0∞} {Ψ : (Nat → McLocal × FT) → ℝ≥0∞} {f : Nat → McLocal × FT}
    (hΦ : ∀ w acc, Accounts s b d nT F0 w acc → Φ w = Ψ fun t => if t < nT then (w.locals t, acc t) else f t) :
    ∀ (sched : List Nat) (w : McWorld) (acc : Nat → FT), (∀ t ∈ sched, t < nT) → Accounts s b d nT F0 w acc →
    expect (scheduled sqrt target s sched w) Φ = together (fun t => solo s g0 (sched.count t) (w.locals t, acc t)) Ψ nT f
  | [], w, acc, _, ha => by
    refine (expect_ret _ _).trans ?_
    exact (hΦ w acc ha).trans (together_ret Ψ (fun t => (w.locals t, acc t)) nT f fun t _ => rfl).symm
  | t :: ts, w, acc, hs, ha => by
    have htT := hs t (List.mem_cons_self ..)
    obtain ⟨r1, r2, r3⟩ := h.good_step (sqrt := id) (target := 0) (ha.good t htT) g0
    obtain ⟨s1, s2, s3⟩ := h.solo_step (g0 := g0) (x := (w.locals t, acc t)) (ha.good t htT)
    rw [together_step (a := mcStep id 0 s (w.locals t) g0) (k := fun y => solo s g0 (ts.count t) (y.1, acc t + flushed s (w.locals t))) Ψ r1
      (fun q z e => (h.solo_ends _ _ (r3 q z e)).2.1) ?_ nT f htT]
    · show expect (bindD (mcStep sqrt target s (w.locals t) w.shared) _) Φ = _
      rw [step_solo (ha.running.trans hg.symm), expect_bind (r1.bind fun _ _ _ _ => Reads.ret _) ?_, expect_bind r1 (fun _ _ _ => CanEnd.ret _)]
      · refine expect_congr fun q y e => ?_
        rw [expect_ret, h.expect_scheduled hsq ht hg hΦ ts _ (Function.update acc t (acc t + flushed s (w.locals t))) (fun u hu => hs u (List.mem_cons_of_mem _ hu))
          (ha.step h hsq ht htT (r3 q y e))]
        refine together_congr Ψ nT f fun u hu => ?_
        show solo s g0 (ts.count u) (Function.update w.locals t y.1 u, Function.update acc t _ u) = Function.update (β := fun _ => Draws → Out (McLocal × FT)) _ t _ u
        by_cases hut : u = t
        · rw [hut, Function.update_self, Function.update_self, Function.update_self]
        · rw [Function.update_of_ne hut, Function.update_of_ne hut, Function.update_of_ne hut, List.count_cons_of_ne (Ne.symm hut)]
      · intro q z e
        obtain ⟨a, r, e1, e2⟩ := bindD_ok e
        injection e2 with e2 e3
        subst e3
        rw [← e2]
        exact h.scheduled_ends hsq ht hg ts _ _ (fun u hu => hs u (List.mem_cons_of_mem _ hu)) (ha.step h hsq ht htT (r3 q a e1))
    · show solo s g0 ((t :: ts).count t) _ = _
      rw [List.count_cons_self]
      show bindD (bindD _ _) _ = _
      funext ds
      unfold bindD
      cases mcStep id 0 s (w.locals t) g0 ds <;> rfl

end

end Pokers
