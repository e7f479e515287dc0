import Verif.Proofs.Progress
/-!
# Cancellation
-/
namespace Pokers
open Finset (range)

/-- How often a thread that stands here can still merge its counters once the cancel token is set. -/
def updatesLeft : Pc → Nat
  | .reserve | .work | .flush => 2
  | .check | .final => 1
  | .done | .panicked => 0

theorem advance_updatesLeft (l : Local) : updatesLeft l.advance.pc = 2 := by
  rcases advance_pc l with h | h <;> rw [h] <;> rfl

theorem updateResults_evals (sqrt : ℚ → ℚ) (n : Nat) (ex : Bool) (b : Batch) (hb : HandStats) (r : Results) :
    (updateResults sqrt n ex b hb r).evalCount = r.evalCount + b.evalCount := by
  unfold updateResults
  cases ex <;> rfl

variable {s : Sim} {ds : List DividerU64} {total size nT : Nat}

theorem threadStep_stopped (l : Local) (g : Shared) : (threadStep s ds total size l g).2.stopped = g.stopped := by
  unfold threadStep
  split
  · simp only; split <;> rfl
  · split
    · rfl
    · simp only; split <;> rfl
  · rfl
  · split <;> rfl
  · rfl
  · rfl
  · rfl

theorem Steps.stays_stopped {w v : World} (h : Steps s ds total size nT w v) (hst : w.shared.stopped = true) :
    v.shared.stopped = true := by
  induction h with
  | refl => exact hst
  | step _ hs ih =>
    cases hs with
    | cancel => rfl
    | thread t ht hpc => exact (threadStep_stopped _ _).trans ih

theorem threadStep_updates (l : Local) (g : Shared) (hst : g.stopped = true) :
    (threadStep s ds total size l g).2.sent.length + updatesLeft (threadStep s ds total size l g).1.pc ≤
      g.sent.length + updatesLeft l.pc := by
  unfold threadStep
  cases hc : l.pc with
  | reserve =>
    simp only
    split
    · simp [updatesLeft]
    · simp only
      split <;> simp [updatesLeft]
  | work =>
    simp only
    split
    · simp [updatesLeft]
    · split
      · simp [updatesLeft]
      · show g.sent.length + updatesLeft (Local.advance _).pc ≤ _
        rw [advance_updatesLeft]; simp [updatesLeft]
  | flush =>
    show (g.sent ++ [_]).length + 1 ≤ _ + 2
    rw [List.length_append, List.length_singleton]
  | check => simp [hst, updatesLeft]
  | final =>
    show (g.sent ++ [_]).length + 0 ≤ _ + 1
    rw [List.length_append, List.length_singleton]
  | done => simp [hc, updatesLeft]
  | panicked => simp [hc, updatesLeft]

/-- After cancellation the number of updates is bounded by what each thread has left. -/
theorem Steps.updates {w v : World} (h : Steps s ds total size nT w v) (hst : w.shared.stopped = true) :
    v.shared.sent.length + ∑ t ∈ range nT, updatesLeft (v.locals t).pc ≤
      w.shared.sent.length + ∑ t ∈ range nT, updatesLeft (w.locals t).pc := by
  induction h with
  | refl => exact le_rfl
  | step hs hstep ih =>
    rename_i u v'
    refine le_trans ?_ ih
    cases hstep with
    | cancel => exact le_rfl
    | thread t ht hpc =>
      have h1 := threadStep_updates (s := s) (ds := ds) (total := total) (size := size) (u.locals t) u.shared (hs.stays_stopped hst)
      rw [← Finset.add_sum_erase _ (fun t => updatesLeft (u.locals t).pc) (Finset.mem_range.2 ht),
        ← Finset.add_sum_erase _ (fun x => updatesLeft (Function.update u.locals t (threadStep s ds total size (u.locals t) u.shared).1 x).pc)
          (Finset.mem_range.2 ht)]
      have h2 : ∑ x ∈ (range nT).erase t, updatesLeft (Function.update u.locals t (threadStep s ds total size (u.locals t) u.shared).1 x).pc =
          ∑ x ∈ (range nT).erase t, updatesLeft (u.locals x).pc := by
        apply Finset.sum_congr rfl
        intro x hx
        rw [Function.update_of_ne (Finset.mem_erase.1 hx).1]
      simp only [h2, Function.update_self]
      omega

/-- A thread that finds the token set after a flush processes no further position. -/
theorem Steps.stops {w v : World} (h : Steps s ds total size nT w v) (hst : w.shared.stopped = true) {t : Nat}
    (hpc : (w.locals t).pc = .check ∨ (w.locals t).pc = .final ∨ (w.locals t).pc = .done) :
    ((v.locals t).pc = .check ∨ (v.locals t).pc = .final ∨ (v.locals t).pc = .done) ∧
    (v.locals t).pos = (w.locals t).pos ∧ (v.locals t).stats = (w.locals t).stats ∧ (v.locals t).hands = (w.locals t).hands := by
  induction h with
  | refl => exact ⟨hpc, rfl, rfl, rfl⟩
  | step hs hstep ih =>
    rename_i u v'
    cases hstep with
    | cancel => exact ih
    | thread t' ht hpc' =>
      by_cases htt : t = t'
      · subst htt
        simp only [Function.update_self]
        obtain ⟨h1, h2, h3, h4⟩ := ih
        have hst' := hs.stays_stopped hst
        unfold threadStep
        rcases h1 with hc | hc | hc
        · rw [hc]; simp only [hst', if_true]
          exact ⟨Or.inr (Or.inl trivial), h2, h3, h4⟩
        · rw [hc]
          exact ⟨Or.inr (Or.inr rfl), h2, h3, h4⟩
        · exact absurd hc hpc'.1
      · simp only [Function.update_of_ne htt]
        exact ih

/-- The same shared state with the token not set. -/
def Shared.unstop (g : Shared) : Shared := { g with stopped := false }

theorem threadStep_unstop (l : Local) (g : Shared) (hc : l.pc ≠ .check) :
    (threadStep s ds total size l g.unstop).1 = (threadStep s ds total size l g).1 ∧
    (threadStep s ds total size l g.unstop).2 = (threadStep s ds total size l g).2.unstop := by
  unfold threadStep
  cases hp : l.pc with
  | reserve =>
    show (match fits 64 (g.enumPos + size) with | none => _ | some e => _ : Local × Shared).1 = _ ∧
      (match fits 64 (g.enumPos + size) with | none => _ | some e => _ : Local × Shared).2 = _
    simp only
    cases fits 64 (g.enumPos + size) <;> exact ⟨rfl, rfl⟩
  | work =>
    simp only
    cases s.processPos ds l.pos (l.stats, l.hands) with
    | none => exact ⟨rfl, rfl⟩
    | some st =>
      simp only
      split <;> exact ⟨rfl, rfl⟩
  | flush => exact ⟨rfl, rfl⟩
  | check => exact absurd hp hc
  | final => exact ⟨rfl, rfl⟩
  | done => exact ⟨rfl, rfl⟩
  | panicked => exact ⟨rfl, rfl⟩

/-- Either no thread has merged its counters before its end, and then the token made no difference so far, or at least 10000
evaluations have been made. -/
theorem Steps.token {r0 : Results} {cancelled : Bool} {w : World} (h : Steps s ds total size nT (World.init s r0 cancelled) w) :
    (Steps s ds total size nT (World.init s r0 false) { w with shared := w.shared.unstop } ∧
      ∀ t < nT, (w.locals t).pc ≠ .flush ∧ (w.locals t).pc ≠ .check) ∨
    10000 ≤ w.shared.results.evalCount ∨
    ∃ t < nT, (w.locals t).pc = .flush ∧ 10000 ≤ (w.locals t).stats.evalCount := by
  induction h with
  | refl => exact Or.inl ⟨.refl, fun t _ => ⟨(by decide : Pc.reserve ≠ Pc.flush), (by decide : Pc.reserve ≠ Pc.check)⟩⟩
  | step hs hstep ih =>
    rename_i u v
    cases hstep with
    | cancel => exact ih
    | thread t ht hpc =>
      rcases ih with ⟨h1, h2⟩ | h | ⟨t', ht', hf, he⟩
      · -- nothing merged so far
        obtain ⟨h2f, h2c⟩ := h2 t ht
        obtain ⟨e1, e2⟩ := threadStep_unstop (s := s) (ds := ds) (total := total) (size := size) (u.locals t) u.shared h2c
        have hstep' : Steps s ds total size nT (World.init s r0 false)
            { locals := Function.update u.locals t (threadStep s ds total size (u.locals t) u.shared).1,
              shared := (threadStep s ds total size (u.locals t) u.shared).2.unstop } := by
          have := Steps.step h1 (.thread _ t ht hpc)
          simp only [e1, e2] at this
          exact this
        by_cases hflush : (threadStep s ds total size (u.locals t) u.shared).1.pc = .flush
        · right; right
          refine ⟨t, ht, ?_, ?_⟩
          · simp only [Function.update_self]; exact hflush
          · simp only [Function.update_self]
            revert hflush
            unfold threadStep
            cases hp : (u.locals t).pc with
            | reserve =>
              simp only
              split
              · intro hx; cases hx
              · simp only; split <;> (intro hx; cases hx)
            | work =>
              simp only
              split
              · intro hx; cases hx
              · split
                · rename_i he; intro _; exact he
                · intro hx
                  rcases advance_pc { (u.locals t) with pc := .work, stats := _, hands := _ } with hy | hy <;>
                    (rw [hy] at hx; cases hx)
            | flush => exact absurd hp h2f
            | check => exact absurd hp h2c
            | final => intro hx; cases hx
            | done => exact absurd hp hpc.1
            | panicked => exact absurd hp hpc.2
        · left
          refine ⟨hstep', fun x hx => ?_⟩
          by_cases hxt : x = t
          · subst hxt
            simp only [Function.update_self]
            refine ⟨hflush, ?_⟩
            unfold threadStep
            cases hp : (u.locals x).pc with
            | reserve =>
              simp only
              split
              · intro hx; cases hx
              · simp only; split <;> (intro hx; cases hx)
            | work =>
              simp only
              split
              · intro hx; cases hx
              · split
                · intro hx; cases hx
                · intro hx
                  rcases advance_pc { (u.locals x) with pc := .work, stats := _, hands := _ } with hy | hy <;>
                    (rw [hy] at hx; cases hx)
            | flush => exact absurd hp h2f
            | check => exact absurd hp h2c
            | final => intro hx; cases hx
            | done => exact absurd hp hpc.1
            | panicked => exact absurd hp hpc.2
          · simp only [Function.update_of_ne hxt]
            exact h2 x hx
      · right; left
        refine le_trans h ?_
        show u.shared.results.evalCount ≤ (threadStep s ds total size (u.locals t) u.shared).2.results.evalCount
        unfold threadStep
        split
        · simp only; split <;> exact le_rfl
        · split
          · exact le_rfl
          · simp only; split <;> exact le_rfl
        · show _ ≤ (updateResults id _ _ _ _ _).evalCount
          rw [updateResults_evals]; omega
        · split <;> exact le_rfl
        · show _ ≤ (updateResults id _ _ _ _ _).evalCount
          rw [updateResults_evals]; omega
        · exact le_rfl
        · exact le_rfl
      · by_cases htt : t' = t
        · subst htt
          right; left
          show 10000 ≤ (threadStep s ds total size (u.locals t') u.shared).2.results.evalCount
          unfold threadStep
          rw [hf]
          show _ ≤ (updateResults id _ _ _ _ _).evalCount
          rw [updateResults_evals]; omega
        · right; right
          refine ⟨t', ht', ?_, ?_⟩
          · simp only [Function.update_of_ne htt]; exact hf
          · simp only [Function.update_of_ne htt]; exact he

end Pokers
