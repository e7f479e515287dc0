import Verif.Proofs.ChanceRun
import Verif.Proofs.FloatStop
/-!
Runs in which each thread evaluates one batch, with threads that make their steps in any order.
-/
namespace Pokers

open Spec
open scoped ENNReal

variable {α β γ : Type}

/-! ## Programs that accept the same draws -/

theorem chance_eq {f : Draws → Out α} {g : Draws → Out β} (h : ∀ ds, (∃ a, f ds = .ok a []) ↔ ∃ c, g ds = .ok c []) (ds : Draws) : chance f ds = chance g ds := by
  induction ds generalizing f g with
  | nil => rfl
  | cons x ds ih =>
    have e : firstDraws f = firstDraws g := by
      ext y
      exact ⟨fun ⟨q, hq⟩ => ⟨q, (h (y :: q)).1 hq⟩, fun ⟨q, hq⟩ => ⟨q, (h (y :: q)).2 hq⟩⟩
    rw [chance, chance, e, ih fun q => h (x :: q)]

theorem expect_le_of {f : Draws → Out α} {g : Draws → Out β} {φ : α → ℝ≥0∞} {ψ : β → ℝ≥0∞}
    (h1 : ∀ ds a, f ds = .ok a [] → ∃ c, g ds = .ok c [] ∧ φ a ≤ ψ c) (h2 : ∀ ds c, g ds = .ok c [] → ∃ a, f ds = .ok a []) : expect f φ ≤ expect g ψ := by
  refine ENNReal.tsum_le_tsum fun ds => ?_
  by_cases h : ∃ a, f ds = .ok a []
  · obtain ⟨a, h⟩ := h
    obtain ⟨c, hc, hle⟩ := h1 ds a h
    rw [contribution_of _ h, contribution_of _ hc,
      chance_eq (f := f) (g := g) fun q => ⟨fun ⟨a, ha⟩ => ⟨_, (h1 q a ha).choose_spec.1⟩, fun ⟨c, hc⟩ => h2 q c hc⟩]
    exact mul_le_mul_right hle _
  · push Not at h
    rw [contribution_not _ h]
    exact zero_le

/-- Several programs, one of which always has a result that counts for nothing. -/
theorem together_bad {P : Nat → Draws → Out γ} {Ψ : (Nat → γ) → ℝ≥0∞} {t : Nat} (h : ∀ q y, P t q = .ok y [] → ∀ f', f' t = y → Ψ f' = 0) :
    ∀ (T : Nat) (f : Nat → γ), t < T → together P Ψ T f = 0
  | 0, _, h => absurd h (Nat.not_lt_zero _)
  | T + 1, f, ht => by
    have e0 : expect (P T) (fun _ => (0 : ℝ≥0∞)) = 0 := by
      have := expect_mul (P T) 0 fun _ => (0 : ℝ≥0∞)
      simpa using this
    show expect (P T) _ = 0
    rw [expect_congr (χ := fun _ => 0) fun q y e => ?_, e0]
    by_cases htT : t = T
    · subst htT
      exact together_zero t _ fun f' hf' => h q y e f' (by rw [hf' t (le_refl _), Function.update_self])
    · exact together_bad h T _ (by omega)

theorem together_base {P : Nat → Draws → Out γ} {Ψ : (Nat → γ) → ℝ≥0∞} (T : Nat) {N : Nat} (hΨ : ∀ f f', (∀ t < N, f t = f' t) → Ψ f = Ψ f') :
    ∀ (f f' : Nat → γ), (∀ t < N, T ≤ t → f t = f' t) → together P Ψ T f = together P Ψ T f' := by
  induction T with
  | zero => exact fun f f' h => hΨ f f' fun t ht => h t ht (Nat.zero_le _)
  | succ T ih =>
    intro f f' h
    show expect (P T) _ = expect (P T) _
    refine expect_congr fun q y _ => ih _ _ fun t ht hT => ?_
    by_cases htT : t = T
    · rw [htT, Function.update_self, Function.update_self]
    · rw [Function.update_of_ne htT, Function.update_of_ne htT]
      exact h t ht (by omega)

/-! ## A thread that evaluates one batch -/

section
variable {ranges : List (List Combo)} {b d : Nat} {s : Sim} {g1 : McShared}

/-- A thread that has not evaluated more than one batch, and what it has handed over. -/
def Fit (s : Sim) (l : McLocal) (F : FT) : Prop :=
  match l.pc with
  | .start => Unused s l ∧ F = 0
  | .eval | .move => l.stats.evalCount < 4096 ∧ F = 0
  | .flush => l.stats.evalCount = 4096 ∧ F = 0
  | .check | .final | .done => Unused s l ∧ F.2 = 4096
  | .restart | .panicked => False

/-- A thread that has given up without an evaluation. -/
def Lost (s : Sim) (l : McLocal) (F : FT) : Prop := (l.pc = .final ∨ l.pc = .done) ∧ Unused s l ∧ F = 0

/-- The number of steps to the end of the thread. -/
def rank (l : McLocal) : Nat :=
  match l.pc with
  | .start => 8195
  | .eval => 2 * (4095 - l.stats.evalCount) + 4
  | .move => 2 * (4095 - l.stats.evalCount) + 5
  | .flush => 3
  | .check => 2
  | .final => 1
  | .done | .restart | .panicked => 0

theorem Fit.rank_zero {l : McLocal} {F : FT} (h : Fit s l F) (h0 : rank l = 0) : l.pc = .done := by
  unfold Fit at h
  unfold rank at h0
  cases hpc : l.pc <;> rw [hpc] at h h0 <;> simp_all

theorem rank_done {l : McLocal} (h : l.pc = .done) : rank l = 0 := by
  unfold rank; rw [h]

theorem evaluated_count (s : Sim) (l : McLocal) (board : Hand) : (evaluated s l board).stats.evalCount = l.stats.evalCount + 1 := rfl

theorem McReady.fit_step (h : McReady ranges b d s) (hg : g1.stopped = true) {l : McLocal} {F : FT} (hl : Good s b d l) (hf : Fit s l F) (hpc : l.pc ≠ .done)
    {q : Draws} {y : McLocal × McShared} (e : mcStep id 0 s l g1 q = .ok y []) :
    Fit s y.1 (F + flushed s l) ∧ rank y.1 + 1 = rank l ∨ l.pc = .start ∧ Lost s y.1 (F + flushed s l) := by
  have hfl : l.pc ≠ .flush → l.pc ≠ .final → flushed s l = 0 := fun h1 h2 => by unfold flushed; rw [if_neg (by simp [h1, h2])]
  have hfull : l.pc = .flush ∨ l.pc = .final → (flushed s l).2 = l.stats.evalCount := fun h1 => by unfold flushed; rw [if_pos h1]; rfl
  unfold Fit at hf
  cases hp : l.pc with
  | start =>
    rw [hp] at hf
    obtain ⟨hu, rfl⟩ := hf
    rw [hfl (by rw [hp]; simp) (by rw [hp]; simp), add_zero]
    rw [h.step_start g1 hl.outside hp] at e
    obtain ⟨p, r, e1, e2⟩ := bindD_ok e
    injection e2 with e2 _
    subst e2
    cases hp1 : p.1 with
    | true =>
      left
      refine ⟨?_, ?_⟩
      · show l.stats.evalCount < 4096 ∧ (0 : FT) = 0
        rw [hu.1]
        exact ⟨by show 0 < 4096; norm_num, rfl⟩
      · unfold rank
        rw [hp]
        show 2 * (4095 - l.stats.evalCount) + 4 + 1 = 8195
        rw [hu.1]
        rfl
    | false => exact Or.inr ⟨rfl, Or.inl rfl, hu, rfl⟩
  | eval =>
    left
    rw [hp] at hf
    obtain ⟨hu, rfl⟩ := hf
    rw [hfl (by rw [hp]; simp) (by rw [hp]; simp), add_zero]
    rw [h.step_eval g1 hp] at e
    obtain ⟨p, r, e1, e2⟩ := bindD_ok e
    injection e2 with e2 _
    subst e2
    rw [evaluated_count, and_fff]
    have hc := evaluated_count s l p
    by_cases hk : l.stats.evalCount = 4095
    · rw [if_pos (by rw [hk])]
      refine ⟨⟨by show (evaluated s l p).stats.evalCount = 4096; omega, rfl⟩, ?_⟩
      unfold rank
      rw [hp]
      show 3 + 1 = 2 * (4095 - l.stats.evalCount) + 4
      omega
    · rw [if_neg (by omega)]
      refine ⟨⟨by show (evaluated s l p).stats.evalCount < 4096; omega, rfl⟩, ?_⟩
      unfold rank
      rw [hp]
      show 2 * (4095 - (evaluated s l p).stats.evalCount) + 5 + 1 = 2 * (4095 - l.stats.evalCount) + 4
      omega
  | move =>
    left
    rw [hp] at hf
    obtain ⟨hu, rfl⟩ := hf
    rw [hfl (by rw [hp]; simp) (by rw [hp]; simp), add_zero]
    rw [step_move g1 hp] at e
    obtain ⟨i, r, e1, e2⟩ := bindD_ok e
    injection e2 with e2 _
    subst e2
    obtain ⟨x, hx⟩ := hl.stands (Or.inr hp)
    have hi : i < s.combinedRanges.length := by
      unfold sample at e1
      split at e1
      · cases e1
      · split at e1
        · injection e1 with e1 _; omega
        · cases e1
    obtain ⟨w, m1, m2⟩ := h.moved_stands hx hi
    show Fit s (moved s l i) 0 ∧ rank (moved s l i) + 1 = rank l
    rw [m1]
    refine ⟨⟨hu, rfl⟩, ?_⟩
    unfold rank
    rw [hp]
  | flush =>
    left
    rw [hp] at hf
    obtain ⟨hu, rfl⟩ := hf
    rw [step_flush g1 hp] at e
    injection e with e _
    subst e
    refine ⟨⟨⟨rfl, rfl⟩, ?_⟩, ?_⟩
    · rw [zero_add, hfull (Or.inl hp), hu]
    · unfold rank
      rw [hp]
  | check =>
    left
    rw [hp] at hf
    rw [hfl (by rw [hp]; simp) (by rw [hp]; simp), add_zero]
    rw [step_check g1 hp, hg] at e
    injection e with e _
    subst e
    refine ⟨hf, ?_⟩
    unfold rank
    rw [hp]
    rfl
  | final =>
    left
    rw [hp] at hf
    rw [step_final g1 hp] at e
    injection e with e _
    subst e
    refine ⟨⟨hf.1, ?_⟩, ?_⟩
    · show F.2 + (flushed s l).2 = 4096
      rw [hfull (Or.inr hp), hf.2, hf.1.1]
      rfl
    · unfold rank
      rw [hp]
  | restart => rw [hp] at hf; exact absurd hf id
  | done => exact absurd hp hpc
  | panicked => rw [hp] at hf; exact absurd hf id

theorem McReady.lost_step (_h : McReady ranges b d s) {l : McLocal} {F : FT} (hf : Lost s l F)
    {q : Draws} {y : McLocal × McShared} (e : mcStep id 0 s l g1 q = .ok y []) : Lost s y.1 (F + flushed s l) := by
  obtain ⟨hp, hu, rfl⟩ := hf
  have h0 : flushed s l = 0 := by
    unfold flushed
    rw [hu.full, map_zero, ite_self]
  rw [h0, add_zero]
  rcases hp with hp | hp
  · rw [step_final g1 hp] at e
    injection e with e _
    subst e
    exact ⟨Or.inr rfl, hu, rfl⟩
  · rw [step_done g1 hp] at e
    injection e with e _
    subst e
    exact ⟨Or.inr hp, hu, rfl⟩

theorem McReady.lost_solo (h : McReady ranges b d s) : ∀ (n : Nat) {l : McLocal} {F : FT}, Good s b d l → Lost s l F → ∀ {q : Draws} {y : McLocal × FT},
    solo s g1 n (l, F) q = .ok y [] → Lost s y.1 y.2
  | 0, l, F, _, hf, q, y, e => by injection e with e _; rw [← e]; exact hf
  | n + 1, l, F, hl, hf, q, y, e => by
    obtain ⟨a, r, e1, e2⟩ := bindD_ok e
    obtain ⟨k1, k2, k3⟩ := h.solo_step (g0 := g1) (x := (l, F)) hl
    obtain ⟨p, e3, e4⟩ := k1 q a r e1
    have e5 := e4 []
    rw [List.append_nil] at e5
    refine h.lost_solo n (l := a.1) (F := a.2) (k3 p a e5) ?_ e2
    obtain ⟨c, r', e6, e7⟩ := bindD_ok e5
    injection e7 with e7 e8
    subst e8 e7
    exact h.lost_step hf e6

/-- The one batch of a thread. -/
theorem McReady.expect_once (h : McReady ranges b d s) (hg : g1.stopped = true) {Φ : McLocal × FT → ℝ≥0∞} {ψ : FT → ℝ≥0∞}
    (hΦ : ∀ l F, Good s b d l → l.pc = .done → Φ (l, F) = ψ F) (h0 : ψ 0 = 0) {l : McLocal} (hl : Good s b d l) (hpc : l.pc = .start) (hf : Unused s l) :
    expect (solo s g1 8195 (l, 0)) Φ =
      (1 - misses s.combinedRanges (b ||| d) ^ 1000) * average (batchSpace s b d) fun sd => ψ (trunc s.nPlayers (showsFull sd)) := by
  have hdone : ∀ (n : Nat) {l : McLocal} {F : FT}, Good s b d l → l.pc = .done → expect (solo s g1 n (l, F)) Φ = ψ F := by
    intro n
    induction n with
    | zero => intro l F hl hp; exact (expect_ret _ _).trans (hΦ l F hl hp)
    | succ n ih =>
      intro l F hl hp
      rw [h.expect_succ n hl, step_done g1 hp, expect_ret]
      have : flushed s l = 0 := by unfold flushed; rw [hp]; simp
      rw [this, add_zero]
      exact ih hl hp
  have hfinal : ∀ (n : Nat) {l : McLocal} {F : FT}, Good s b d l → Unused s l → l.pc = .final → expect (solo s g1 (n + 1) (l, F)) Φ = ψ F := by
    intro n l F hl hu hp
    rw [h.expect_succ n hl, step_final g1 hp, expect_ret]
    have : flushed s l = 0 := by unfold flushed; rw [hu.full, map_zero, ite_self]
    rw [this, add_zero]
    exact hdone n (l := { l with pc := .done }) ⟨hl.outside, by simp, by simp, hl.ids⟩ rfl
  have e : flushed s l = 0 := by unfold flushed; rw [hpc]; simp
  rw [h.expect_succ 8194 hl, h.step_start g1 hl.outside hpc, expect_bind (attempts_reads s _ _) (fun _ _ _ => CanEnd.ret _), h.average_batches, e]
  refine h.expect_deal (fun w' hw' => ?_) (fun w' x hx _ => ?_) 1000 hl.outside
  · rw [expect_ret, add_zero]
    exact (hfinal 8193 (l := { l with walk := w', pc := .final }) ⟨hw', by simp, by simp, hl.ids⟩ hf rfl).trans h0
  · rw [expect_ret, add_zero]
    have hG : Good s b d { l with walk := w', pc := .eval } := ⟨hx.outside, fun _ => ⟨x, hx⟩, by simp, hl.ids⟩
    show expect (solo s g1 (8192 + 2) ({ l with walk := w', pc := .eval }, 0)) Φ = _
    rw [h.expect_solo_add 2 Φ 8192 hG, h.expect_full (Φ := fun y => expect (solo s g1 2 y) Φ) (ψ := ψ) (fun l' F' k1 k2 k3 => ?_) hG rfl hx hf]
    · simp only [zero_add]
    · rw [h.expect_succ 1 k1, step_check g1 k3, expect_ret, hg]
      have : flushed s l' = 0 := by unfold flushed; rw [k3]; simp
      rw [this, add_zero]
      exact hfinal 0 (l := { l' with pc := .final }) ⟨k1.outside, by simp, by simp, k1.ids⟩ k2 rfl

/-- One batch of each thread. -/
theorem McReady.together_once (h : McReady ranges b d s) (hg : g1.stopped = true) {l : McLocal} (hl : Good s b d l) (hpc : l.pc = .start)
    (hu : Unused s l) (Ψ : (Nat → McLocal × FT) → ℝ≥0∞) : ∀ (T : Nat) (φ : FT → ℝ≥0∞) (f : Nat → McLocal × FT),
    (∀ f', (∀ t, T ≤ t → f' t = f t) → (∀ t < T, (f' t).1.pc = .done ∧ (f' t).2.2 = 4096) → Ψ f' = φ (∑ t ∈ Finset.range T, (f' t).2)) →
    (∀ f', (∀ t, T ≤ t → f' t = f t) → (∃ t < T, (f' t).2.2 ≠ 4096) → Ψ f' = 0) →
    together (fun _ => solo s g1 8195 (l, 0)) Ψ T f =
      (1 - misses s.combinedRanges (b ||| d) ^ 1000) ^ T * average (runSpace s b d T) fun sd => φ (trunc s.nPlayers (showsFull sd))
  | 0, φ, f, h1, _ => by
    rw [pow_zero, one_mul, average_runSpace_zero, showsFull_nil, map_zero]
    exact (h1 f (fun _ _ => rfl) (by simp)).trans (by simp)
  | T + 1, φ, f, h1, h2 => by
    show expect (solo s g1 8195 (l, 0)) _ = _
    rw [h.expect_once hg (ψ := fun F => if F.2 = 4096 then (1 - misses s.combinedRanges (b ||| d) ^ 1000) ^ T *
        average (runSpace s b d T) fun sd => φ (trunc s.nPlayers (showsFull sd) + F) else 0) (fun l' F' k1 k2 => ?_) (by simp) hl hpc hu]
    · rw [show T + 1 = 1 + T by omega, average_runSpace_add, average_runSpace_one, pow_add, pow_one, mul_assoc, ← average_mul (batchSpace s b d) (_ ^ T)]
      congr 1
      refine average_congr fun x hx => ?_
      have hlen : (trunc s.nPlayers (showsFull x)).2 = 4096 := by
        obtain ⟨i, _, mv, hmv, hx, _⟩ := mem_batchSpace.1 hx
        have := congrArg List.length hx
        rw [List.length_map, trackDeals_length, (mem_moveLists.1 hmv).1] at this
        exact this
      rw [if_pos hlen]
      congr 1
      refine average_congr fun y _ => ?_
      rw [showsFull_append, map_add, add_comm]
    · split
      · rename_i hF
        refine h.together_once hg hl hpc hu Ψ T (fun F => φ (F + F')) _ (fun f' e1 e2 => ?_) (fun f' e1 e2 => ?_)
        · have eT : f' T = (l', F') := by rw [e1 T (le_refl _), Function.update_self]
          rw [h1 f' (fun t ht => by rw [e1 t (by omega), Function.update_of_ne (by omega)]) fun t ht => ?_, Finset.sum_range_succ, eT]
          by_cases htT : t = T
          · rw [htT, eT]; exact ⟨k2, hF⟩
          · exact e2 t (by omega)
        · obtain ⟨t, ht, e2⟩ := e2
          exact h2 f' (fun t ht => by rw [e1 t (by omega), Function.update_of_ne (by omega)]) ⟨t, by omega, e2⟩
      · rename_i hF
        refine together_zero T _ fun f' e1 => ?_
        have eT : f' T = (l', F') := by rw [e1 T (le_refl _), Function.update_self]
        exact h2 f' (fun t ht => by rw [e1 t (by omega), Function.update_of_ne (by omega)]) ⟨T, by omega, by rw [eT]; exact hF⟩

/-! ## Threads in any order -/

/-- The token is set, or it is left as it is. -/
def McWorld.mark (c : Bool) (w : McWorld) : McWorld := if c then { w with shared := { w.shared with stopped := true } } else w

/-- A step of the thread `t`. -/
def stepF (dev : ℚ → ℚ → Option ℚ) (prog : Option ℚ → Nat) (target : ℚ) (s : Sim) (t : Nat) (w : McWorld) : Draws → Out McWorld :=
  bindD (mcStepF dev prog target s (w.locals t) w.shared) fun y => retD { locals := Function.update w.locals t y.1, shared := y.2 }

/-- All threads have ended. -/
def AllDone (nT : Nat) (w : McWorld) : Prop := ∀ t < nT, (w.locals t).pc = .done

open Classical in
/-- At most `n` steps of the threads. Before each step `σ` looks at everything that has happened so far, and says whether the owner of the cancel token sets
it now, and which thread makes the step. -/
noncomputable def adaptive (dev : ℚ → ℚ → Option ℚ) (prog : Option ℚ → Nat) (target : ℚ) (s : Sim) (nT : Nat) (σ : List McWorld → Bool × Nat) :
    Nat → List McWorld → McWorld → Draws → Out McWorld
  | 0, _, w => retD w
  | n + 1, past, w =>
    if AllDone nT w then retD w
    else bindD (stepF dev prog target s (σ (w :: past)).2 (w.mark (σ (w :: past)).1)) (adaptive dev prog target s nT σ n (w :: past))

/-- `σ` always chooses a thread that has not ended. -/
def Chooses (nT : Nat) (σ : List McWorld → Bool × Nat) : Prop :=
  ∀ w past, ¬ AllDone nT w → (σ (w :: past)).2 < nT ∧ (w.locals (σ (w :: past)).2).pc ≠ .done

variable {dev : ℚ → ℚ → Option ℚ} {prog : Option ℚ → Nat} {target : ℚ} {nT : Nat}

theorem mark_locals (c : Bool) (w : McWorld) : (w.mark c).locals = w.locals := by cases c <;> rfl

/-- A thread of the program with floating-point numbers that has not panicked. -/
def GoodF (s : Sim) (b d nT : Nat) (w : McWorld) : Prop := ∀ t < nT, ∃ l, Good s b d l ∧ McLocalClose s.nPlayers l (w.locals t)

theorem GoodF.mark {w : McWorld} (h : GoodF s b d nT w) (c : Bool) : GoodF s b d nT (w.mark c) := by
  unfold GoodF
  rw [mark_locals]
  exact h

theorem same_draws {R : β → γ → Prop} {f : Draws → Out α} (h1 : Reads f) (h2 : CanEnd f) (A : α → β) (B : α → γ) (hR : ∀ p, R (A p) (B p)) :
    Reads (bindD f fun p => retD (A p)) ∧ CanEnd (bindD f fun p => retD (A p)) ∧
    (∀ q y', bindD f (fun p => retD (A p)) q = .ok y' [] → ∃ y, bindD f (fun p => retD (B p)) q = .ok y [] ∧ R y' y) ∧
    (∀ q y, bindD f (fun p => retD (B p)) q = .ok y [] → ∃ y', bindD f (fun p => retD (A p)) q = .ok y' []) := by
  refine ⟨h1.bind fun _ _ _ _ => Reads.ret _, CanEnd.bind h1 h2 fun _ _ _ => CanEnd.ret _, fun q y' e => ?_, fun q y e => ?_⟩
  · obtain ⟨p, r, e1, e2⟩ := bindD_ok e
    injection e2 with e2 e3
    subst e2 e3
    exact ⟨B p, bindD_of e1, hR p⟩
  · obtain ⟨p, r, e1, e2⟩ := bindD_ok e
    injection e2 with e2 e3
    subst e2 e3
    exact ⟨A p, bindD_of e1⟩

/-- The step of the program with floating-point numbers accepts the same draws as the exact one. -/
theorem McReady.stepF_same (h : McReady ranges b d s) {l l' : McLocal} {g' : McShared} (hl : Good s b d l) (hc : McLocalClose s.nPlayers l l')
    (hg : l.pc = .check → g'.stopped = g1.stopped) :
    Reads (mcStepF dev prog target s l' g') ∧ CanEnd (mcStepF dev prog target s l' g') ∧
    (∀ q y', mcStepF dev prog target s l' g' q = .ok y' [] → ∃ y, mcStep id 0 s l g1 q = .ok y [] ∧ McLocalClose s.nPlayers y.1 y'.1) ∧
    (∀ q y, mcStep id 0 s l g1 q = .ok y [] → ∃ y', mcStepF dev prog target s l' g' q = .ok y' []) := by
  have h9 : s.nPlayers ≤ 9 := by have := h.fields; omega
  have ho : Outside s.combinedRanges l'.walk := by rw [hc.walk]; exact hl.outside
  have hexact : l'.pc ≠ .eval → l'.pc ≠ .flush → l'.pc ≠ .final → mcStepF dev prog target s l' g' = mcStep id target s l' g' := fun k1 k2 k3 => by
    funext ds
    unfold mcStepF
    cases hp : l'.pc <;> simp_all
  cases hp : l.pc with
  | start =>
    have hp' := hc.pc.trans hp
    rw [hexact (by rw [hp']; simp) (by rw [hp']; simp) (by rw [hp']; simp), h.step_start g' ho hp', h.step_start g1 hl.outside hp, hc.walk]
    exact same_draws (R := fun y' y : McLocal × McShared => McLocalClose s.nPlayers y.1 y'.1) (attempts_reads s _ _) (attempts_ends s h.drawable _ _) _ _ fun p => ⟨rfl, rfl, hc.stats⟩
  | restart =>
    have hp' := hc.pc.trans hp
    rw [hexact (by rw [hp']; simp) (by rw [hp']; simp) (by rw [hp']; simp), h.step_restart g' ho hp', h.step_restart g1 hl.outside hp, hc.walk]
    exact same_draws (R := fun y' y : McLocal × McShared => McLocalClose s.nPlayers y.1 y'.1) (attempts_reads s _ _) (attempts_ends s h.drawable _ _) _ _ fun p => ⟨rfl, rfl, hc.stats⟩
  | eval =>
    obtain ⟨x, hx⟩ := hl.stands (Or.inl hp)
    have hp' := hc.pc.trans hp
    have e : mcStepF dev prog target s l' g' = bindD (randomizeBoard (5 - (maskCards b).length) (l.walk.used ||| s.deadMask) (ofCards (maskCards b))) fun board =>
        let st := evaluateHandsF s.nPlayers l'.walk.hands l'.walk.weight board l'.walk.lookup true (l'.stats, l'.hands)
        retD ({ l' with stats := st.1, hands := st.2, pc := if st.1.evalCount &&& 0xfff = 0 then .flush else .move }, g') := by
      funext ds
      obtain ⟨_, h2, h3, h4, _, _, _, h5, _, h6⟩ := h.fields
      have hcount : s.fixedBoard.count = (maskCards b).length := by rw [h4, ← fixedBoard_eq, fixedBoard_count h5]
      have hsub : subC 5 s.fixedBoard.count = some (5 - (maskCards b).length) := by
        unfold subC; rw [hcount, if_pos h6]
      have e : evalDealF s l' ds = match randomizeBoard (5 - (maskCards b).length) (l.walk.used ||| s.deadMask) (ofCards (maskCards b)) ds with
          | .ok board ds => .ok { l' with stats := (evaluateHandsF s.nPlayers l'.walk.hands l'.walk.weight board l'.walk.lookup true (l'.stats, l'.hands)).1,
                                          hands := (evaluateHandsF s.nPlayers l'.walk.hands l'.walk.weight board l'.walk.lookup true (l'.stats, l'.hands)).2 } ds
          | .more => .more
          | .panic => .panic := by
        unfold evalDealF
        rw [hsub, h4, hc.walk]
        rfl
      unfold mcStepF bindD
      rw [hp']
      simp only [e]
      have hnp := randomizeBoard_no_panic (5 - (maskCards b).length) (l.walk.used ||| s.deadMask) (ofCards (maskCards b)) ds
      cases hr : randomizeBoard (5 - (maskCards b).length) (l.walk.used ||| s.deadMask) (ofCards (maskCards b)) ds with
      | ok board rest => rfl
      | more => rfl
      | panic => exact absurd hr hnp
    rw [e, h.step_eval g1 hp]
    refine same_draws (R := fun y' y : McLocal × McShared => McLocalClose s.nPlayers y.1 y'.1) (randomizeBoard_reads _ _ _) (randomizeBoard_ends _ _ _ (h.enough hx)) _ _ fun p => ?_
    have hcl := evaluateHands_close h9 l.walk.hands l.walk.weight p l.walk.lookup true hc.stats
    rw [hc.walk]
    refine ⟨?_, rfl, hcl⟩
    show (if (evaluateHandsF _ _ _ _ _ _ _).1.evalCount &&& 0xfff = 0 then McPc.flush else McPc.move) = if (evaluated s l p).stats.evalCount &&& 0xfff = 0 then McPc.flush else McPc.move
    rw [hcl.1]
    rfl
  | flush =>
    have hp' := hc.pc.trans hp
    have e : mcStepF dev prog target s l' g' =
        retD ({ l' with pc := .check, stats := Batch.init s.nPlayers, hands := HandStats.init }, g'.updateF dev prog target s false l') := by
      funext ds; unfold mcStepF; rw [hp']; rfl
    rw [e, step_flush g1 hp]
    exact same_draws (R := fun y' y : McLocal × McShared => McLocalClose s.nPlayers y.1 y'.1) (Reads.ret ()) (CanEnd.ret ()) (fun _ => _) (fun _ => _) fun _ => ⟨rfl, hc.walk, init_close _⟩
  | check =>
    have hp' := hc.pc.trans hp
    rw [hexact (by rw [hp']; simp) (by rw [hp']; simp) (by rw [hp']; simp), step_check g' hp', step_check g1 hp]
    exact same_draws (R := fun y' y : McLocal × McShared => McLocalClose s.nPlayers y.1 y'.1) (Reads.ret ()) (CanEnd.ret ()) (fun _ => _) (fun _ => _)
      fun _ => ⟨by rw [hg hp], hc.walk, hc.stats⟩
  | move =>
    have hp' := hc.pc.trans hp
    rw [hexact (by rw [hp']; simp) (by rw [hp']; simp) (by rw [hp']; simp), step_move g' hp', step_move g1 hp]
    refine same_draws (R := fun y' y : McLocal × McShared => McLocalClose s.nPlayers y.1 y'.1) (sample_reads _) (sample_ends h.nonempty) _ _ fun i => ?_
    show McLocalClose _ (moved s l i) (moved s l' i)
    unfold moved
    rw [hc.walk]
    cases s.combinedRanges[i]? with
    | none => exact ⟨rfl, rfl, hc.stats⟩
    | some cr =>
      simp only
      cases redeal cr i l.walk with
      | none => exact ⟨rfl, rfl, hc.stats⟩
      | some w => exact ⟨rfl, rfl, hc.stats⟩
  | final =>
    have hp' := hc.pc.trans hp
    have e : mcStepF dev prog target s l' g' = retD ({ l' with pc := .done }, g'.updateF dev prog target s true l') := by
      funext ds; unfold mcStepF; rw [hp']; rfl
    rw [e, step_final g1 hp]
    exact same_draws (R := fun y' y : McLocal × McShared => McLocalClose s.nPlayers y.1 y'.1) (Reads.ret ()) (CanEnd.ret ()) (fun _ => _) (fun _ => _) fun _ => ⟨rfl, hc.walk, hc.stats⟩
  | done =>
    have hp' := hc.pc.trans hp
    rw [hexact (by rw [hp']; simp) (by rw [hp']; simp) (by rw [hp']; simp), step_done g' hp', step_done g1 hp]
    exact same_draws (R := fun y' y : McLocal × McShared => McLocalClose s.nPlayers y.1 y'.1) (Reads.ret ()) (CanEnd.ret ()) (fun _ => _) (fun _ => _) fun _ => hc
  | panicked => exact absurd hp hl.calm

/-- A step of a thread of the program with floating-point numbers. -/
theorem McReady.goodF_step (h : McReady ranges b d s) {w : McWorld} (hw : GoodF s b d nT w) {t : Nat} (ht : t < nT) :
    Reads (stepF dev prog target s t w) ∧ CanEnd (stepF dev prog target s t w) ∧ ∀ q w', stepF dev prog target s t w q = .ok w' [] → GoodF s b d nT w' := by
  obtain ⟨l, hl, hc⟩ := hw t ht
  obtain ⟨h1, h2, h3, _⟩ := h.stepF_same (dev := dev) (prog := prog) (target := target) (g1 := w.shared) (g' := w.shared) hl hc fun _ => rfl
  refine ⟨h1.bind fun _ _ _ _ => Reads.ret _, CanEnd.bind h1 h2 fun _ _ _ => CanEnd.ret _, fun q w' e => ?_⟩
  obtain ⟨y', r, e1, e2⟩ := bindD_ok e
  injection e2 with e2 e3
  subst e2 e3
  obtain ⟨y, e4, e5⟩ := h3 q y' e1
  intro u hu
  show ∃ l, Good s b d l ∧ McLocalClose s.nPlayers l (Function.update w.locals t y'.1 u)
  by_cases hut : u = t
  · subst hut
    rw [Function.update_self]
    exact ⟨y.1, (h.good_step hl _).2.2 q y e4, e5⟩
  · rw [Function.update_of_ne hut]
    exact hw u hu

theorem McReady.adaptive_ends (h : McReady ranges b d s) {σ : List McWorld → Bool × Nat} (hσ : Chooses nT σ) : ∀ (n : Nat) (past : List McWorld) (w : McWorld),
    GoodF s b d nT w → Reads (adaptive dev prog target s nT σ n past w) ∧ CanEnd (adaptive dev prog target s nT σ n past w)
  | 0, _, w, _ => ⟨Reads.ret w, CanEnd.ret w⟩
  | n + 1, past, w, hw => by
    unfold adaptive
    by_cases hd : AllDone nT w
    · rw [if_pos hd]
      exact ⟨Reads.ret w, CanEnd.ret w⟩
    · rw [if_neg hd]
      obtain ⟨h1, h2, h3⟩ := h.goodF_step (dev := dev) (prog := prog) (target := target) (hw.mark (σ (w :: past)).1) (hσ w past hd).1
      refine ⟨h1.bind fun q a r e => ?_, CanEnd.bind h1 h2 fun q a e => (h.adaptive_ends hσ n _ a (h3 q a e)).2⟩
      obtain ⟨p, e1, e2⟩ := h1 q a r e
      have := e2 []
      rw [List.append_nil] at this
      exact (h.adaptive_ends hσ n _ a (h3 p a this)).1

/-- The threads have evaluated at most one batch each. -/
structure Once (s : Sim) (b d nT : Nat) (w : McWorld) (vl : Nat → McLocal) (acc : Nat → FT) : Prop where
  close : ∀ t < nT, McLocalClose s.nPlayers (vl t) (w.locals t)
  good : ∀ t < nT, Good s b d (vl t)
  fit : ∀ t < nT, Fit s (vl t) (acc t)
  shared : ∃ g, McSharedClose s.nPlayers g w.shared ∧ trunc s.nPlayers (resFull g.results) = ∑ t ∈ Finset.range nT, acc t
  seen : ∀ t < nT, rank (vl t) ≤ 2 → w.shared.stopped = true
  first : w.shared.stopped = false → NoBatch w.shared.results

theorem Once.mark {w : McWorld} {vl : Nat → McLocal} {acc : Nat → FT} (h : Once s b d nT w vl acc) (c : Bool) : Once s b d nT (w.mark c) vl acc := by
  cases c
  · exact h
  · obtain ⟨g, g1, g2⟩ := h.shared
    exact ⟨h.close, h.good, h.fit, ⟨{ g with stopped := true }, ⟨rfl, g1.results, g1.fresh, g1.sent⟩, g2⟩, fun _ _ _ => rfl, fun e => by cases e⟩

theorem Once.goodF {w : McWorld} {vl : Nat → McLocal} {acc : Nat → FT} (h : Once s b d nT w vl acc) : GoodF s b d nT w :=
  fun t ht => ⟨vl t, h.good t ht, h.close t ht⟩

theorem Once.allDone {w : McWorld} {vl : Nat → McLocal} {acc : Nat → FT} (h : Once s b d nT w vl acc) (h0 : ∑ t ∈ Finset.range nT, rank (vl t) = 0) : AllDone nT w :=
  fun t ht => (h.close t ht).pc.trans ((h.fit t ht).rank_zero (Finset.sum_eq_zero_iff.1 h0 t (Finset.mem_range.2 ht)))

/-- A step of a thread that is not the last chance of the thread. -/
theorem Once.step (h : McReady ranges b d s) (hg : g1.stopped = true) {T : ℚ} (hT : 1 / 31622 ≤ T) {w : McWorld} {vl : Nat → McLocal} {acc : Nat → FT}
    (ho : Once s b d nT w vl acc) {t : Nat} (ht : t < nT) (hpc : (vl t).pc ≠ .done) {q : Draws} {w' : McWorld} {y : McLocal × McShared}
    (e : stepF devF prog T s t w q = .ok w' []) (e' : mcStep id 0 s (vl t) g1 q = .ok y []) :
    Once s b d nT w' (Function.update vl t y.1) (Function.update acc t (acc t + flushed s (vl t))) ∧ rank y.1 + 1 = rank (vl t) ∨
      (vl t).pc = .start ∧ Lost s y.1 (acc t + flushed s (vl t)) := by
  obtain ⟨e0, _, _, _, hce, e2, _⟩ := h.fields
  have hl := ho.good t ht
  have hcl := ho.close t ht
  have hst : (vl t).pc = .check → w.shared.stopped = g1.stopped := fun hp => by rw [hg, ho.seen t ht (by unfold rank; rw [hp])]
  rcases h.fit_step hg hl (ho.fit t ht) hpc e' with ⟨f1, f2⟩ | f
  · left
    refine ⟨?_, f2⟩
    obtain ⟨y', r, k1, k2⟩ := bindD_ok e
    injection k2 with k2 k3
    subst k2 k3
    obtain ⟨y0, m1, m2⟩ := (h.stepF_same (dev := devF) (prog := prog) (target := T) hl hcl hst).2.2.1 q y' k1
    rw [e'] at m1
    injection m1 with m1 _
    subst m1
    have heff := mcStepF_effect (l' := y'.1) (g' := y'.2) k1
    unfold StepEffectF at heff
    obtain ⟨g, s1, s2⟩ := ho.shared
    have hids : IdPlayers s.nPlayers (w.locals t).stats := by rw [show (w.locals t).stats = (vl t).stats from hcl.stats.1]; exact hl.ids
    have hsum : ∀ x : FT, ∑ u ∈ Finset.range nT, Function.update acc t (acc t + x) u = (∑ u ∈ Finset.range nT, acc u) + x := by
      intro x
      have hm : t ∈ Finset.range nT := Finset.mem_range.2 ht
      have he : ∑ u ∈ (Finset.range nT).erase t, Function.update acc t (acc t + x) u = ∑ u ∈ (Finset.range nT).erase t, acc u :=
        Finset.sum_congr rfl fun u hu => by rw [Function.update_of_ne (Finset.ne_of_mem_erase hu)]
      rw [← Finset.add_sum_erase _ _ hm, ← Finset.add_sum_erase _ acc hm, Function.update_self, he]
      abel
    have hup : ∀ fin, ∃ g2, McSharedClose s.nPlayers g2 (w.shared.updateF devF prog T s fin (w.locals t)) ∧
        trunc s.nPlayers (resFull g2.results) = (∑ u ∈ Finset.range nT, acc u) + trunc s.nPlayers (full ((vl t).stats, (vl t).hands)) := by
      intro fin
      have hr : trunc s.nPlayers (resFull (g.update (fun _ => 0) 0 s fin (vl t)).results) =
          (∑ u ∈ Finset.range nT, acc u) + trunc s.nPlayers (full ((vl t).stats, (vl t).hands)) := by
        rw [← s2]
        exact resFull_update (fun _ => 0) s.nPlayers s.calcExact ((vl t).stats, (vl t).hands) g.results hl.ids
      rcases McSharedClose.update hce devF prog T fin hcl s1 with k | k
      · exact ⟨_, k, hr⟩
      · exact ⟨_, k.2, hr⟩
    have key : (∃ g2, McSharedClose s.nPlayers g2 y'.2 ∧ trunc s.nPlayers (resFull g2.results) = (∑ u ∈ Finset.range nT, acc u) + flushed s (vl t)) ∧
        ((vl t).pc = .flush ∨ rank (vl t) ≤ 2 → y'.2.stopped = true) ∧ (w.shared.stopped = true → y'.2.stopped = true) ∧
        (y'.2.stopped = false → NoBatch y'.2.results) := by
      rw [hcl.pc] at heff
      by_cases hp : (vl t).pc = .flush
      · rw [hp] at heff
        obtain ⟨heff, _⟩ := heff
        have hset : y'.2.stopped = true := by
          rw [heff]
          cases hs : w.shared.stopped with
          | true => exact updateF_stopped hs
          | false =>
            have hF := (FStat.nil (ho.first hs)).update (by norm_num) devF (n := s.nPlayers) (by omega) (by omega) hids (w.locals t).hands
            obtain ⟨dd, hd1, hd2⟩ := first_devF hT hF
            unfold McShared.updateF
            simp only
            rw [hce, hd1]
            simp [hd2]
        refine ⟨?_, fun _ => hset, fun _ => hset, fun e => by rw [hset] at e; cases e⟩
        rw [heff]
        unfold flushed
        rw [if_pos (Or.inl hp)]
        exact hup false
      · by_cases hp2 : (vl t).pc = .final
        · rw [hp2] at heff
          obtain ⟨heff, _⟩ := heff
          have hset : y'.2.stopped = true := by
            rw [heff]
            exact updateF_stopped (ho.seen t ht (by unfold rank; rw [hp2]; norm_num))
          refine ⟨?_, fun _ => hset, fun _ => hset, fun e => by rw [hset] at e; cases e⟩
          rw [heff]
          unfold flushed
          rw [if_pos (Or.inr hp2)]
          exact hup true
        · have hsame : y'.2 = w.shared := by
            cases hp3 : (vl t).pc <;> simp_all
          rw [hsame]
          refine ⟨⟨g, s1, ?_⟩, fun hr => ?_, id, ho.first⟩
          · unfold flushed
            rw [if_neg (by simp [hp, hp2]), add_zero, s2]
          · rcases hr with hr | hr
            · exact absurd hr hp
            · exact ho.seen t ht hr
    obtain ⟨⟨g2, t1, t2⟩, t3, t4, t5⟩ := key
    refine ⟨fun u hu => ?_, fun u hu => ?_, fun u hu => ?_, ⟨g2, t1, by rw [hsum]; exact t2⟩, fun u hu hr => ?_, t5⟩
    · show McLocalClose _ _ (Function.update w.locals t y'.1 u)
      by_cases hut : u = t
      · subst hut; rw [Function.update_self, Function.update_self]; exact m2
      · rw [Function.update_of_ne hut, Function.update_of_ne hut]; exact ho.close u hu
    · by_cases hut : u = t
      · subst hut; rw [Function.update_self]; exact (h.good_step hl _).2.2 q y e'
      · rw [Function.update_of_ne hut]; exact ho.good u hu
    · by_cases hut : u = t
      · subst hut; rw [Function.update_self, Function.update_self]; exact f1
      · rw [Function.update_of_ne hut, Function.update_of_ne hut]; exact ho.fit u hu
    · show y'.2.stopped = true
      by_cases hut : u = t
      · subst hut
        rw [Function.update_self] at hr
        refine t3 ?_
        by_cases h3 : rank (vl u) ≤ 2
        · exact Or.inr h3
        · left
          have : rank (vl u) = 3 := by omega
          unfold rank at this
          have hf := ho.fit u ht
          unfold Fit at hf
          cases hp : (vl u).pc <;> rw [hp] at this hf <;> first | rfl | (simp at this)
      · rw [Function.update_of_ne hut] at hr
        exact t4 (ho.seen u hu hr)
  · exact Or.inr f

open Classical in
/-- The value of the results of the threads if each has handed over one batch. -/
noncomputable def onceValue (nT : Nat) (φ : FT → ℝ≥0∞) (f : Nat → McLocal × FT) : ℝ≥0∞ :=
  if ∀ t < nT, (f t).1.pc = .done ∧ (f t).2.2 = 4096 then φ (∑ t ∈ Finset.range nT, (f t).2) else 0

/-- The expected value of the results of the threads if each goes on by itself. -/
noncomputable def prospect (s : Sim) (g1 : McShared) (nT : Nat) (φ : FT → ℝ≥0∞) (vl : Nat → McLocal) (acc : Nat → FT) : ℝ≥0∞ :=
  together (fun t => solo s g1 (rank (vl t)) (vl t, acc t)) (onceValue nT φ) nT fun t => (vl t, acc t)

/-- The counters that are whole numbers: the wins by mask, the wins, ties and totals of the hands, and the number of evaluations. -/
def wholes (x : FT) : (Nat → Nat) × (Nat → Nat × Nat × Nat) × Nat := (x.1.1, (fun k => ((x.1.2 k).1, (x.1.2 k).2.1, (x.1.2 k).2.2.1)), x.2)

theorem wholes_close {n : Nat} {r r' : Results} (h : ResClose n r r') : wholes (trunc n (resFull r')) = wholes (trunc n (resFull r)) := by
  refine Prod.ext ?_ (Prod.ext ?_ h.evals)
  · show cut _ r'.winsByMask = cut _ r.winsByMask
    rw [h.masks]
  · funext k
    show ((cut (NUM_HANDS * n) (fun k => cellOf (r'.handResults k)) k).1, (cut (NUM_HANDS * n) (fun k => cellOf (r'.handResults k)) k).2.1,
      (cut (NUM_HANDS * n) (fun k => cellOf (r'.handResults k)) k).2.2.1) = ((cut (NUM_HANDS * n) (fun k => cellOf (r.handResults k)) k).1,
      (cut (NUM_HANDS * n) (fun k => cellOf (r.handResults k)) k).2.1, (cut (NUM_HANDS * n) (fun k => cellOf (r.handResults k)) k).2.2.1)
    unfold cut
    split
    · exact Prod.ext (h.hands k).wins (Prod.ext (h.hands k).ties (h.hands k).total)
    · rfl

open Classical in
/-- The value of the results of a run. -/
noncomputable def outcome (s : Sim) (nT : Nat) (φ : (Nat → Nat) × (Nat → Nat × Nat × Nat) × Nat → ℝ≥0∞) (w : McWorld) : ℝ≥0∞ :=
  if AllDone nT w then φ (wholes (trunc s.nPlayers (resFull w.shared.results))) else 0

variable {φ : (Nat → Nat) × (Nat → Nat × Nat × Nat) × Nat → ℝ≥0∞} {σ : List McWorld → Bool × Nat}

theorem Once.ended {w : McWorld} {vl : Nat → McLocal} {acc : Nat → FT} (h : Once s b d nT w vl acc) (hd : AllDone nT w) :
    prospect s g1 nT (fun x => φ (wholes x)) vl acc = outcome s nT φ w := by
  have hd' : ∀ t < nT, (vl t).pc = .done := fun t ht => (h.close t ht).pc.symm.trans (hd t ht)
  obtain ⟨g, k1, k2⟩ := h.shared
  unfold prospect outcome
  rw [if_pos hd, together_ret _ (fun t => (vl t, acc t)) nT _ fun t ht => by rw [rank_done (hd' t ht)]; rfl]
  simp only [ite_self]
  unfold onceValue
  have hall : ∀ t < nT, (vl t).pc = .done ∧ (acc t).2 = 4096 := fun t ht => ⟨hd' t ht, by
    have := h.fit t ht
    unfold Fit at this
    rw [hd' t ht] at this
    exact this.2⟩
  rw [if_pos hall, wholes_close k1.results, k2]

/-- A run with threads that make their steps in any order: the value is at least what the threads would have by themselves, and it is the same if no thread
can fail to find a deal. -/
theorem McReady.adaptive_law (h : McReady ranges b d s) (hg : g1.stopped = true) {T : ℚ} (hT : 1 / 31622 ≤ T) (hσ : Chooses nT σ) :
    ∀ (n : Nat) (past : List McWorld) (w : McWorld) (vl : Nat → McLocal) (acc : Nat → FT), Once s b d nT w vl acc → ∑ t ∈ Finset.range nT, rank (vl t) ≤ n →
    prospect s g1 nT (fun x => φ (wholes x)) vl acc ≤ expect (adaptive devF prog T s nT σ n past w) (outcome s nT φ) ∧
    (s.combinedRanges.length = 1 → expect (adaptive devF prog T s nT σ n past w) (outcome s nT φ) ≤ prospect s g1 nT (fun x => φ (wholes x)) vl acc)
  | 0, past, w, vl, acc, ho, hn => by
    have e : expect (adaptive devF prog T s nT σ 0 past w) (outcome s nT φ) = prospect s g1 nT (fun x => φ (wholes x)) vl acc := by
      rw [ho.ended (ho.allDone (by omega))]
      exact expect_ret _ _
    exact ⟨e.ge, fun _ => e.le⟩
  | n + 1, past, w, vl, acc, ho, hn => by
    unfold adaptive
    by_cases hd : AllDone nT w
    · rw [if_pos hd, expect_ret, ho.ended hd]
      exact ⟨le_refl _, fun _ => le_refl _⟩
    · rw [if_neg hd]
      obtain ⟨ht, hpc⟩ := hσ w past hd
      generalize (σ (w :: past)).2 = t at *
      have ho1 := ho.mark (σ (w :: past)).1
      generalize hw1 : w.mark (σ (w :: past)).1 = w1 at *
      have hpc1 : (vl t).pc ≠ .done := by rw [← (ho.close t ht).pc]; exact hpc
      obtain ⟨r, hr⟩ : ∃ r, rank (vl t) = r + 1 := ⟨rank (vl t) - 1, by
        have : rank (vl t) ≠ 0 := fun h0 => hpc1 ((ho.fit t ht).rank_zero h0)
        omega⟩
      obtain ⟨r1, r2, r3⟩ := h.goodF_step (dev := devF) (prog := prog) (target := T) ho1.goodF ht
      rw [expect_bind r1 fun q a e => (h.adaptive_ends hσ n _ a (r3 q a e)).2]
      have hl := ho1.good t ht
      obtain ⟨k1, k2, k3⟩ := h.solo_step (g0 := g1) (x := (vl t, acc t)) hl
      have hst : (vl t).pc = .check → w1.shared.stopped = g1.stopped := fun hp => by rw [hg, ho1.seen t ht (by unfold rank; rw [hp])]
      obtain ⟨_, _, m3, m4⟩ := h.stepF_same (dev := devF) (prog := prog) (target := T) hl (ho1.close t ht) hst
      have hval : prospect s g1 nT (fun x => φ (wholes x)) vl acc = expect (soloStep s g1 (vl t, acc t)) fun z =>
          together (Function.update (fun t => solo s g1 (rank (vl t)) (vl t, acc t)) t (solo s g1 r z)) (onceValue nT fun x => φ (wholes x)) nT fun t => (vl t, acc t) := by
        unfold prospect
        refine together_step (t := t) _ k1 (fun q z e => (h.solo_ends r z (k3 q z e)).2.1) ?_ nT _ ht
        show solo s g1 (rank (vl t)) (vl t, acc t) = _
        rw [hr]
        rfl
      rw [hval]
      -- the two programs accept the same draws
      have hfw : ∀ q z, soloStep s g1 (vl t, acc t) q = .ok z [] → ∃ y, mcStep id 0 s (vl t) g1 q = .ok y [] ∧ z = (y.1, acc t + flushed s (vl t)) := by
        intro q z e
        obtain ⟨y, r', e1, e2⟩ := bindD_ok e
        injection e2 with e2 e3
        subst e3
        exact ⟨y, e1, e2.symm⟩
      have hbw : ∀ q y, mcStep id 0 s (vl t) g1 q = .ok y [] → soloStep s g1 (vl t, acc t) q = .ok (y.1, acc t + flushed s (vl t)) [] :=
        fun q y e => bindD_of e
      have hF : ∀ q w', stepF devF prog T s t w1 q = .ok w' [] → ∃ y, mcStep id 0 s (vl t) g1 q = .ok y [] := by
        intro q w' e
        obtain ⟨y', r', e1, e2⟩ := bindD_ok e
        injection e2 with e2 e3
        subst e3
        obtain ⟨y, e4, _⟩ := m3 q y' e1
        exact ⟨y, e4⟩
      have hB : ∀ q y, mcStep id 0 s (vl t) g1 q = .ok y [] → ∃ w', stepF devF prog T s t w1 q = .ok w' [] := by
        intro q y e
        obtain ⟨y', e1⟩ := m4 q y e
        exact ⟨_, bindD_of e1⟩
      have hnext : ∀ q w' y, stepF devF prog T s t w1 q = .ok w' [] → mcStep id 0 s (vl t) g1 q = .ok y [] →
          together (Function.update (fun t => solo s g1 (rank (vl t)) (vl t, acc t)) t (solo s g1 r (y.1, acc t + flushed s (vl t)))) (onceValue nT fun x => φ (wholes x)) nT
            (fun t => (vl t, acc t)) ≤ expect (adaptive devF prog T s nT σ n (w :: past) w') (outcome s nT φ) ∧
          (s.combinedRanges.length = 1 → expect (adaptive devF prog T s nT σ n (w :: past) w') (outcome s nT φ) ≤
            together (Function.update (fun t => solo s g1 (rank (vl t)) (vl t, acc t)) t (solo s g1 r (y.1, acc t + flushed s (vl t)))) (onceValue nT fun x => φ (wholes x)) nT
              fun t => (vl t, acc t)) := by
        intro q w' y e1 e2
        rcases Once.step h hg hT ho1 ht hpc1 e1 e2 with ⟨o1, o2⟩ | ⟨o1, o2⟩
        · have hsum : ∑ u ∈ Finset.range nT, rank (Function.update vl t y.1 u) ≤ n := by
            have hm : t ∈ Finset.range nT := Finset.mem_range.2 ht
            have he : ∑ u ∈ (Finset.range nT).erase t, rank (Function.update vl t y.1 u) = ∑ u ∈ (Finset.range nT).erase t, rank (vl u) :=
              Finset.sum_congr rfl fun u hu => by rw [Function.update_of_ne (Finset.ne_of_mem_erase hu)]
            rw [← Finset.add_sum_erase _ _ hm] at hn
            rw [← Finset.add_sum_erase _ _ hm, Function.update_self, he]
            omega
          have hV : together (Function.update (fun t => solo s g1 (rank (vl t)) (vl t, acc t)) t (solo s g1 r (y.1, acc t + flushed s (vl t))))
              (onceValue nT fun x => φ (wholes x)) nT (fun t => (vl t, acc t)) =
              prospect s g1 nT (fun x => φ (wholes x)) (Function.update vl t y.1) (Function.update acc t (acc t + flushed s (vl t))) := by
            unfold prospect
            refine (together_congr _ nT _ fun u hu => ?_).trans (together_base (N := nT) nT (fun f f' hff => ?_) _ _ fun u hu hu' => absurd hu (by omega))
            · by_cases hut : u = t
              · subst hut
                simp only [Function.update_self]
                rw [show rank y.1 = r by omega]
              · simp only [Function.update_of_ne hut]
            · unfold onceValue
              have e3 : (∀ t < nT, (f t).1.pc = .done ∧ (f t).2.2 = 4096) ↔ ∀ t < nT, (f' t).1.pc = .done ∧ (f' t).2.2 = 4096 :=
                forall₂_congr fun t ht => by rw [hff t ht]
              have e4 : ∑ t ∈ Finset.range nT, (f t).2 = ∑ t ∈ Finset.range nT, (f' t).2 :=
                Finset.sum_congr rfl fun t ht => by rw [hff t (Finset.mem_range.1 ht)]
              simp only [e3, e4]
          rw [hV]
          exact h.adaptive_law hg hT hσ n _ w' _ _ o1 hsum
        · have h0 : together (Function.update (fun t => solo s g1 (rank (vl t)) (vl t, acc t)) t (solo s g1 r (y.1, acc t + flushed s (vl t))))
              (onceValue nT fun x => φ (wholes x)) nT (fun t => (vl t, acc t)) = 0 := by
            refine together_bad (t := t) (fun q' z e f' hf' => ?_) nT _ ht
            rw [Function.update_self] at e
            have hlost := h.lost_solo r ((h.good_step hl _).2.2 q y e2) o2 e
            unfold onceValue
            rw [if_neg]
            intro hall
            have := (hall t ht).2
            rw [hf', hlost.2.2] at this
            cases this
          rw [h0]
          refine ⟨zero_le, fun h1 => ?_⟩
          exfalso
          have h2 : y.1.pc ≠ .final := single_start h h1 (Or.inl o1) (l' := y.1) (g' := y.2) e2
          rcases o2.1 with o2 | o2
          · exact h2 o2
          · rw [h.step_start g1 hl.outside o1] at e2
            obtain ⟨p, _, _, e4⟩ := bindD_ok e2
            injection e4 with e4 _
            rw [← e4] at o2
            revert o2
            show (if p.1 = true then McPc.eval else McPc.final) = McPc.done → False
            split <;> intro h <;> cases h
      refine ⟨expect_le_of (fun q z e => ?_) (fun q w' e => ?_), fun h1 => expect_le_of (fun q w' e => ?_) (fun q z e => ?_)⟩
      · obtain ⟨y, e1, rfl⟩ := hfw q z e
        obtain ⟨w', e2⟩ := hB q y e1
        exact ⟨w', e2, (hnext q w' y e2 e1).1⟩
      · obtain ⟨y, e1⟩ := hF q w' e
        exact ⟨_, hbw q y e1⟩
      · obtain ⟨y, e1⟩ := hF q w' e
        exact ⟨_, hbw q y e1, (hnext q w' y e e1).2 h1⟩
      · obtain ⟨y, e1, _⟩ := hfw q z e
        exact hB q y e1

end

end Pokers
