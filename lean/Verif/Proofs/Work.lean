import Verif.Proofs.Cancel
import Verif.Proofs.CheckedRun
/-!
# The number of evaluations between two merges of the counters
-/
namespace Pokers
open Finset (range)

variable {s : Sim} {ds : List DividerU64} {total size nT B : Nat} {c : Nat → FT} {r0 : Results}

/-- The number of evaluations in the counters of a thread: fewer than 10000 while it works on, at least 10000 and fewer than
10000 and those of one deal when it is about to merge them. -/
def Load (B : Nat) (l : Local) : Prop :=
  match l.pc with
  | .reserve | .work | .final => l.stats.evalCount < 10000
  | .flush => 10000 ≤ l.stats.evalCount ∧ l.stats.evalCount < 10000 + B
  | .check => l.stats.evalCount = 0
  | .done | .panicked => True

theorem Load.advance {l : Local} (h : l.stats.evalCount < 10000) : Load B l.advance := by
  unfold Load
  rcases advance_pc l with h1 | h1 <;> rw [h1] <;> exact h

/-- What a step does to the counters of a thread and to the results. -/
theorem threadStep_load (hp : Processes s ds total c) (hB : ∀ p < total, (c p).2 ≤ B) {l : Local} {g : Shared}
    (hid : IdPlayers s.nPlayers l.stats) (hin : l.pc = .work → l.pos < total) (h : Load B l) :
    Load B (threadStep s ds total size l g).1 := by
  unfold threadStep
  cases hc : l.pc with
  | reserve =>
    have h0 : l.stats.evalCount < 10000 := by unfold Load at h; rw [hc] at h; exact h
    simp only
    split
    · trivial
    · simp only
      split <;> exact h0
  | work =>
    have h0 : l.stats.evalCount < 10000 := by unfold Load at h; rw [hc] at h; exact h
    obtain ⟨st', e1, e2, e3⟩ := hp l.pos (hin hc) (l.stats, l.hands) hid
    have e4 : st'.1.evalCount = l.stats.evalCount + (c l.pos).2 := congrArg Prod.snd e2
    have e5 := hB l.pos (hin hc)
    simp only [e1]
    split
    · rename_i he
      exact ⟨he, by show st'.1.evalCount < _; omega⟩
    · rename_i he
      exact Load.advance (by show st'.1.evalCount < _; exact not_le.1 he)
  | flush => exact rfl
  | check =>
    have h0 : l.stats.evalCount = 0 := by unfold Load at h; rw [hc] at h; exact h
    simp only
    split
    · show l.stats.evalCount < 10000; omega
    · exact Load.advance (by omega)
  | final => trivial
  | done => simp only; unfold Load; rw [hc]; trivial
  | panicked => simp only; unfold Load; rw [hc]; trivial

theorem Steps.load (hp : Processes s ds total c) (hsize : 0 < size) (hB : ∀ p < total, (c p).2 ≤ B) {cancelled : Bool} {w : World}
    (hs : Steps s ds total size nT (World.init s r0 cancelled) w) : ∀ t < nT, Load B (w.locals t) := by
  induction hs with
  | refl => exact fun t _ => (by decide : (0 : Nat) < 10000)
  | step hs hstep ih =>
    rename_i u v
    obtain ⟨hist, Dr, A, Dl, hI⟩ := Inv.steps hp hsize hs
    cases hstep with
    | cancel => exact ih
    | thread t ht hpc =>
      intro x hx
      by_cases hxt : x = t
      · subst hxt
        simp only [Function.update_self]
        exact threadStep_load hp hB (hI.ids x hx)
          (fun h => by have := hI.inside x hx (Or.inl h); omega) (ih x hx)
      · simp only [Function.update_of_ne hxt]
        exact ih x hx

/-- The number of the first `n` threads that are at their end. -/
def ended (w : World) (n : Nat) : Nat := ∑ t ∈ range n, if (w.locals t).pc = .done then 1 else 0

theorem ended_update {w : World} {t : Nat} (ht : t < nT) (l : Local) (g : Shared) (h : (w.locals t).pc ≠ .done) :
    ended ⟨Function.update w.locals t l, g⟩ nT = ended w nT + if l.pc = .done then 1 else 0 := by
  unfold ended
  rw [← Finset.add_sum_erase _ (fun x => if (w.locals x).pc = .done then 1 else 0) (Finset.mem_range.2 ht),
    ← Finset.add_sum_erase _ (fun x => if (Function.update w.locals t l x).pc = .done then 1 else 0) (Finset.mem_range.2 ht)]
  have h2 : ∑ x ∈ (range nT).erase t, (if (Function.update w.locals t l x).pc = .done then 1 else 0) =
      ∑ x ∈ (range nT).erase t, if (w.locals x).pc = .done then 1 else 0 := by
    apply Finset.sum_congr rfl
    intro x hx
    rw [Function.update_of_ne (Finset.mem_erase.1 hx).1]
  simp only [h2, Function.update_self, if_neg h]
  omega

/-- Every merge but the last one of each thread brings at least 10000 evaluations, and none brings more than 9999 and those of
one deal. -/
theorem Steps.merges (hp : Processes s ds total c) (hsize : 0 < size) (hB : ∀ p < total, (c p).2 ≤ B) {cancelled : Bool} {w : World}
    (h0 : r0.evalCount = 0) (hs : Steps s ds total size nT (World.init s r0 cancelled) w) :
    10000 * w.shared.sent.length ≤ w.shared.results.evalCount + 10000 * ended w nT ∧ ended w nT ≤ w.shared.sent.length ∧
    w.shared.results.evalCount ≤ (9999 + B) * w.shared.sent.length := by
  induction hs with
  | refl =>
    refine ⟨Nat.zero_le _, ?_, ?_⟩
    · have : ended (World.init s r0 cancelled) nT = 0 := Finset.sum_eq_zero fun t _ => rfl
      rw [this]
      exact Nat.zero_le _
    · show r0.evalCount ≤ _
      omega
  | step hs hstep ih =>
    rename_i u v
    have hl := Steps.load hp hsize hB hs
    cases hstep with
    | cancel => exact ih
    | thread t ht hpc =>
      obtain ⟨i1, i2, i3⟩ := ih
      have hlt := hl t ht
      rw [ended_update ht _ _ hpc.1]
      simp only
      have key : ∀ (l : Local) (g : Shared), threadStep s ds total size (u.locals t) u.shared = (l, g) →
          g.sent = u.shared.sent → g.results = u.shared.results → l.pc ≠ .done →
          10000 * (threadStep s ds total size (u.locals t) u.shared).2.sent.length ≤
              (threadStep s ds total size (u.locals t) u.shared).2.results.evalCount +
              10000 * (ended u nT + if (threadStep s ds total size (u.locals t) u.shared).1.pc = .done then 1 else 0) ∧
            (ended u nT + if (threadStep s ds total size (u.locals t) u.shared).1.pc = .done then 1 else 0) ≤
              (threadStep s ds total size (u.locals t) u.shared).2.sent.length ∧
            (threadStep s ds total size (u.locals t) u.shared).2.results.evalCount ≤
              (9999 + B) * (threadStep s ds total size (u.locals t) u.shared).2.sent.length := by
        intro l g e h1 h2 h3
        rw [e]
        simp only [h1, h2, if_neg h3, add_zero]
        exact ⟨i1, i2, i3⟩
      cases hc : (u.locals t).pc with
      | done => exact absurd hc hpc.1
      | panicked => exact absurd hc hpc.2
      | reserve =>
        cases hf : fits 64 (u.shared.enumPos + size) with
        | none =>
          refine key _ u.shared (by unfold threadStep; rw [hc]; simp only [hf]; rfl) rfl rfl (by simp)
        | some e =>
          refine key _ { u.shared with enumPos := min total e } (by unfold threadStep; rw [hc]; simp only [hf]; rfl) rfl rfl ?_
          simp only
          split <;> decide
      | work =>
        cases hf : s.processPos ds (u.locals t).pos ((u.locals t).stats, (u.locals t).hands) with
        | none =>
          refine key _ u.shared (by unfold threadStep; rw [hc]; simp only [hf]; rfl) rfl rfl (by simp)
        | some st =>
          by_cases he : st.1.evalCount ≥ 10000
          · exact key _ u.shared (by unfold threadStep; rw [hc]; simp only [hf, he, if_true]; rfl) rfl rfl (by simp)
          · refine key _ u.shared (by unfold threadStep; rw [hc]; simp only [hf, he, if_false]; rfl) rfl rfl ?_
            rcases advance_pc { (u.locals t) with pc := .work, stats := st.1, hands := st.2 } with hy | hy <;>
              (rw [hy]; decide)
      | check =>
        by_cases he : u.shared.stopped
        · exact key _ u.shared (by unfold threadStep; rw [hc]; simp only [he, if_true]; rfl) rfl rfl (by simp)
        · refine key _ u.shared (by unfold threadStep; rw [hc]; simp only [he]; rfl) rfl rfl ?_
          rcases advance_pc (u.locals t) with hy | hy <;> (rw [hy]; decide)
      | flush =>
        have hlo : 10000 ≤ (u.locals t).stats.evalCount ∧ (u.locals t).stats.evalCount < 10000 + B := by
          unfold Load at hlt; rw [hc] at hlt; exact hlt
        have e : threadStep s ds total size (u.locals t) u.shared = ({ (u.locals t) with pc := .check, stats := Batch.init s.nPlayers, hands := HandStats.init },
          u.shared.update s total (u.locals t)) := by unfold threadStep; rw [hc]
        rw [e]
        unfold Shared.update
        simp only [updateResults_evals, List.length_append, List.length_singleton]
        refine ⟨?_, ?_, ?_⟩
        · simp only [reduceCtorEq, if_false]; omega
        · simp only [reduceCtorEq, if_false]; omega
        · rw [Nat.mul_add]; omega
      | final =>
        have hlo : (u.locals t).stats.evalCount < 10000 := by
          unfold Load at hlt; rw [hc] at hlt; exact hlt
        have e : threadStep s ds total size (u.locals t) u.shared = ({ (u.locals t) with pc := .done },
          u.shared.update s total (u.locals t)) := by unfold threadStep; rw [hc]
        rw [e]
        unfold Shared.update
        simp only [updateResults_evals, List.length_append, List.length_singleton]
        refine ⟨?_, ?_, ?_⟩
        · simp only [if_true]; omega
        · simp only [if_true]; omega
        · rw [Nat.mul_add]; omega

/-- How many evaluations a thread that stands here can still add to the results once the cancel token is set. -/
def threadEvals (B : Nat) (l : Local) : Nat :=
  match l.pc with
  | .reserve | .work => 9999 + B
  | .flush | .final => l.stats.evalCount
  | .check | .done | .panicked => 0

theorem Load.left {l : Local} (h : Load B l) : threadEvals B l ≤ 9999 + B := by
  unfold Load at h
  unfold threadEvals
  cases hc : l.pc <;> simp only [hc] at h ⊢ <;> omega

theorem evalsLeft_advance (l : Local) : threadEvals B l.advance = 9999 + B := by
  unfold threadEvals
  rcases advance_pc l with h1 | h1 <;> rw [h1]

theorem threadStep_left (hp : Processes s ds total c) (hB : ∀ p < total, (c p).2 ≤ B) {l : Local} {g : Shared}
    (hid : IdPlayers s.nPlayers l.stats) (hin : l.pc = .work → l.pos < total) (h : Load B l) (hst : g.stopped = true) :
    (threadStep s ds total size l g).2.results.evalCount + threadEvals B (threadStep s ds total size l g).1 ≤
      g.results.evalCount + threadEvals B l := by
  have hN := Load.left (threadStep_load (size := size) (g := g) hp hB hid hin h)
  have same : ∀ l' g', threadStep s ds total size l g = (l', g') → g'.results = g.results → threadEvals B l = 9999 + B →
      (threadStep s ds total size l g).2.results.evalCount + threadEvals B (threadStep s ds total size l g).1 ≤
        g.results.evalCount + threadEvals B l := by
    intro l' g' e h1 h2
    rw [h2]
    refine Nat.add_le_add (le_of_eq ?_) hN
    rw [e]
    exact congrArg _ h1
  cases hc : l.pc with
  | reserve =>
    have hle : threadEvals B l = 9999 + B := by unfold threadEvals; rw [hc]
    cases hf : fits 64 (g.enumPos + size) with
    | none => exact same _ g (by unfold threadStep; rw [hc]; simp only [hf]; rfl) rfl hle
    | some e => exact same _ { g with enumPos := min total e } (by unfold threadStep; rw [hc]; simp only [hf]; rfl) rfl hle
  | work =>
    have hle : threadEvals B l = 9999 + B := by unfold threadEvals; rw [hc]
    cases hf : s.processPos ds l.pos (l.stats, l.hands) with
    | none => exact same _ g (by unfold threadStep; rw [hc]; simp only [hf]; rfl) rfl hle
    | some st =>
      by_cases he : st.1.evalCount ≥ 10000
      · exact same _ g (by unfold threadStep; rw [hc]; simp only [hf, he, if_true]; rfl) rfl hle
      · exact same _ g (by unfold threadStep; rw [hc]; simp only [hf, he, if_false]; rfl) rfl hle
  | flush =>
    have e : threadStep s ds total size l g = ({ l with pc := .check, stats := Batch.init s.nPlayers, hands := HandStats.init },
      g.update s total l) := by unfold threadStep; rw [hc]
    have hle : threadEvals B l = l.stats.evalCount := by unfold threadEvals; rw [hc]
    rw [e, hle]
    unfold Shared.update
    simp only [updateResults_evals]
    exact le_rfl
  | check =>
    have h0 : l.stats.evalCount = 0 := by unfold Load at h; rw [hc] at h; exact h
    have e : threadStep s ds total size l g = ({ l with pc := .final }, g) := by
      unfold threadStep; rw [hc]; simp only [hst, if_true]
    have hle : threadEvals B l = 0 := by unfold threadEvals; rw [hc]
    rw [e, hle]
    show g.results.evalCount + l.stats.evalCount ≤ _
    omega
  | final =>
    have e : threadStep s ds total size l g = ({ l with pc := .done }, g.update s total l) := by unfold threadStep; rw [hc]
    have hle : threadEvals B l = l.stats.evalCount := by unfold threadEvals; rw [hc]
    rw [e, hle]
    unfold Shared.update
    simp only [updateResults_evals]
    exact le_rfl
  | done =>
    have e : threadStep s ds total size l g = (l, g) := by unfold threadStep; rw [hc]
    rw [e]
  | panicked =>
    have e : threadStep s ds total size l g = (l, g) := by unfold threadStep; rw [hc]
    rw [e]

/-- After cancellation the number of evaluations is bounded by what each thread has left. -/
theorem Steps.work_left (hp : Processes s ds total c) (hsize : 0 < size) (hB : ∀ p < total, (c p).2 ≤ B) {cancelled : Bool}
    {w v : World} (h0 : Steps s ds total size nT (World.init s r0 cancelled) w) (hst : w.shared.stopped = true)
    (h : Steps s ds total size nT w v) :
    v.shared.results.evalCount + ∑ t ∈ range nT, threadEvals B (v.locals t) ≤
      w.shared.results.evalCount + ∑ t ∈ range nT, threadEvals B (w.locals t) := by
  induction h with
  | refl => exact le_rfl
  | step hs hstep ih =>
    rename_i u v'
    refine le_trans ?_ ih
    cases hstep with
    | cancel => exact le_rfl
    | thread t ht hpc =>
      have hall := h0.trans hs
      obtain ⟨hist, Dr, A, Dl, hI⟩ := Inv.steps hp hsize hall
      have h1 := threadStep_left (size := size) hp hB (hI.ids t ht) (fun h => by have := hI.inside t ht (Or.inl h); omega)
        (Steps.load hp hsize hB hall t ht) (hs.stays_stopped hst)
      rw [← Finset.add_sum_erase _ (fun t => threadEvals B (u.locals t)) (Finset.mem_range.2 ht),
        ← Finset.add_sum_erase _ (fun x => threadEvals B (Function.update u.locals t (threadStep s ds total size (u.locals t) u.shared).1 x))
          (Finset.mem_range.2 ht)]
      have h2 : ∑ x ∈ (range nT).erase t, threadEvals B (Function.update u.locals t (threadStep s ds total size (u.locals t) u.shared).1 x) =
          ∑ x ∈ (range nT).erase t, threadEvals B (u.locals x) := by
        apply Finset.sum_congr rfl
        intro x hx
        rw [Function.update_of_ne (Finset.mem_erase.1 hx).1]
      simp only [h2, Function.update_self]
      omega

end Pokers
