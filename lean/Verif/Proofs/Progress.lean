import Verif.Proofs.Run
/-!
# Every schedule ends

Each step of a thread lowers a measure, so a schedule has at most `4 * total + 4 * n_threads` thread steps, and from each reachable
state the threads can run to the end.
-/
namespace Pokers
open Finset (range)

/-- The weight of a program counter in the measure. -/
def pcRank : Pc → Nat
  | .flush => 6
  | .check => 5
  | .reserve => 4
  | .work => 3
  | .final => 1
  | .done => 0
  | .panicked => 0

/-- The part of a thread in the measure. -/
def threadMeasure (l : Local) : Nat := 4 * (pend l).card + pcRank l.pc

/-- The measure of a state. -/
def measure (total nT : Nat) (w : World) : Nat := 4 * (total - w.shared.enumPos) + ∑ t ∈ range nT, threadMeasure (w.locals t)

theorem card_seg (a b : Nat) : (seg a b).card = b - a := by
  unfold seg; simp

variable {s : Sim} {ds : List DividerU64} {total size nT : Nat} {c : Nat → FT} {r0 : Results}

theorem measure_init (s : Sim) (total nT : Nat) (r0 : Results) (cancelled : Bool) :
    measure total nT (World.init s r0 cancelled) = 4 * total + 4 * nT := by
  have : ∀ t, threadMeasure ((World.init s r0 cancelled).locals t) = 4 := fun t => rfl
  unfold measure
  simp only [this, Finset.sum_const, Finset.card_range, smul_eq_mul]
  show 4 * (total - 0) + nT * 4 = _
  omega

theorem threadMeasure_advance (l : Local) : threadMeasure l.advance + 1 ≤ 4 * (l.stop - (l.pos + 1)) + 5 := by
  unfold threadMeasure
  rw [pend_advance, card_seg]
  rcases advance_pc l with h' | h' <;> rw [h'] <;> simp only [pcRank] <;> omega

/-- A thread step lowers the measure; it does not panic if the position counter cannot overflow. -/
theorem threadStep_measure (hp : Processes s ds total c) {w : World} {hist : List (Batch × HandStats)}
    {Dr A : Multiset Nat} {Dl : Nat → Multiset Nat} (h : Inv s total c r0 nT w hist Dr A Dl) {t : Nat} (ht : t < nT)
    (hpc : (w.locals t).pc ≠ .done ∧ (w.locals t).pc ≠ .panicked) :
    let x := threadStep s ds total size (w.locals t) w.shared
    4 * (total - x.2.enumPos) + threadMeasure x.1 + 1 ≤ 4 * (total - w.shared.enumPos) + threadMeasure (w.locals t) ∧
    (total + size < 2 ^ 64 → x.1.pc ≠ .panicked) := by
  have hin := h.inside t ht
  have hid := h.ids t ht
  have hle := h.le
  generalize hl : w.locals t = l at hpc hin hid ⊢
  intro x
  have hx : x = threadStep s ds total size l w.shared := rfl
  clear_value x
  subst hx
  cases hc : l.pc with
  | done => exact absurd hc hpc.1
  | panicked => exact absurd hc hpc.2
  | reserve =>
    have hm : threadMeasure l = 4 := by unfold threadMeasure pend; rw [hc]; rfl
    rw [hm]
    unfold threadStep
    rw [hc]
    simp only
    cases hf : fits 64 (w.shared.enumPos + size) with
    | none =>
      simp only
      refine ⟨?_, fun ho => ?_⟩
      · show _ + threadMeasure { l with pc := .panicked } + 1 ≤ _
        have : threadMeasure { l with pc := .panicked } = 0 := rfl
        omega
      · exfalso
        unfold fits at hf
        rw [if_pos (by omega)] at hf
        cases hf
    | some e =>
      simp only
      have hse : w.shared.enumPos + size = e := by
        unfold fits at hf
        split at hf
        · exact Option.some.inj hf
        · cases hf
      by_cases hx' : w.shared.enumPos ≥ min total e
      · simp only [hx', if_true]
        refine ⟨?_, fun _ => by decide⟩
        have : threadMeasure { l with pc := .final, pos := w.shared.enumPos, stop := min total e } = 1 := rfl
        rw [this]; omega
      · simp only [hx', if_false]
        refine ⟨?_, fun _ => by decide⟩
        have : threadMeasure { l with pc := .work, pos := w.shared.enumPos, stop := min total e } =
            4 * (min total e - w.shared.enumPos) + 3 := by
          show 4 * (seg _ _).card + 3 = _
          rw [card_seg]
        rw [this]; omega
  | work =>
    obtain ⟨hlt, hst⟩ := hin (Or.inl hc)
    have hm : threadMeasure l = 4 * (l.stop - l.pos) + 3 := by unfold threadMeasure pend; rw [hc, card_seg]; rfl
    obtain ⟨st', h1, _, h3⟩ := hp l.pos (by omega) (l.stats, l.hands) hid
    rw [hm]
    unfold threadStep
    rw [hc]
    simp only [h1]
    by_cases he : st'.1.evalCount ≥ 10000
    · simp only [he, if_true]
      refine ⟨?_, fun _ => by decide⟩
      have : threadMeasure { l with pc := .flush, stats := st'.1, hands := st'.2 } = 4 * (l.stop - (l.pos + 1)) + 6 := by
        show 4 * (seg _ _).card + 6 = _
        rw [card_seg]
      rw [this]; omega
    · simp only [he, if_false]
      have := threadMeasure_advance { l with pc := .work, stats := st'.1, hands := st'.2 }
      simp only at this
      refine ⟨by omega, fun _ => ?_⟩
      rcases advance_pc { l with pc := .work, stats := st'.1, hands := st'.2 } with h' | h' <;>
        · intro hx; rw [hx] at h'; cases h'
  | flush =>
    have hm : threadMeasure l = 4 * (l.stop - (l.pos + 1)) + 6 := by unfold threadMeasure pend; rw [hc, card_seg]; rfl
    rw [hm]
    unfold threadStep
    rw [hc]
    simp only
    refine ⟨?_, fun _ => by decide⟩
    have : threadMeasure { l with pc := .check, stats := Batch.init s.nPlayers, hands := HandStats.init } =
        4 * (l.stop - (l.pos + 1)) + 5 := by
      show 4 * (seg _ _).card + 5 = _
      rw [card_seg]
    rw [this]
    show 4 * (total - w.shared.enumPos) + _ + 1 ≤ _
    omega
  | check =>
    have hm : threadMeasure l = 4 * (l.stop - (l.pos + 1)) + 5 := by unfold threadMeasure pend; rw [hc, card_seg]; rfl
    rw [hm]
    unfold threadStep
    rw [hc]
    simp only
    by_cases hs : w.shared.stopped = true
    · simp only [hs, if_true]
      refine ⟨?_, fun _ => by decide⟩
      have : threadMeasure { l with pc := .final } = 1 := rfl
      rw [this]; omega
    · simp only [hs, Bool.false_eq_true, if_false]
      have := threadMeasure_advance l
      refine ⟨by omega, fun _ => ?_⟩
      rcases advance_pc l with h' | h' <;>
        · intro hx; rw [hx] at h'; cases h'
  | final =>
    have hm : threadMeasure l = 1 := by unfold threadMeasure pend; rw [hc]; rfl
    rw [hm]
    unfold threadStep
    rw [hc]
    simp only
    refine ⟨?_, fun _ => by decide⟩
    have : threadMeasure { l with pc := .done } = 0 := rfl
    rw [this]
    show 4 * (total - w.shared.enumPos) + 0 + 1 ≤ _
    omega

/-- The state after a step of thread `t`. -/
def World.next (s : Sim) (ds : List DividerU64) (total size : Nat) (w : World) (t : Nat) : World :=
  { locals := Function.update w.locals t (threadStep s ds total size (w.locals t) w.shared).1,
    shared := (threadStep s ds total size (w.locals t) w.shared).2 }

theorem next_measure (hp : Processes s ds total c) {w : World} {hist : List (Batch × HandStats)}
    {Dr A : Multiset Nat} {Dl : Nat → Multiset Nat} (h : Inv s total c r0 nT w hist Dr A Dl) {t : Nat} (ht : t < nT)
    (hpc : (w.locals t).pc ≠ .done ∧ (w.locals t).pc ≠ .panicked) :
    measure total nT (w.next s ds total size t) < measure total nT w := by
  have hm := (threadStep_measure (size := size) hp h ht hpc).1
  unfold measure
  rw [← Finset.add_sum_erase _ (fun t => threadMeasure (w.locals t)) (Finset.mem_range.2 ht),
    ← Finset.add_sum_erase _ (fun u => threadMeasure ((w.next s ds total size t).locals u)) (Finset.mem_range.2 ht)]
  have h1 : ((w.next s ds total size t).locals t) = (threadStep s ds total size (w.locals t) w.shared).1 := Function.update_self ..
  have h2 : ∑ u ∈ (range nT).erase t, threadMeasure ((w.next s ds total size t).locals u) =
      ∑ u ∈ (range nT).erase t, threadMeasure (w.locals u) := by
    apply Finset.sum_congr rfl
    intro u hu
    have : ((w.next s ds total size t).locals u) = w.locals u := Function.update_of_ne (Finset.mem_erase.1 hu).1 ..
    rw [this]
  have h3 : (w.next s ds total size t).shared.enumPos = (threadStep s ds total size (w.locals t) w.shared).2.enumPos := rfl
  rw [h1, h2, h3]
  omega

/-- Any number of steps of the system, of which `k` are steps of threads. -/
inductive StepsN (s : Sim) (ds : List DividerU64) (total size nThreads : Nat) (w : World) : Nat → World → Prop
  | refl : StepsN s ds total size nThreads w 0 w
  | thread {k : Nat} {u : World} (t : Nat) (ht : t < nThreads)
      (hpc : (u.locals t).pc ≠ .done ∧ (u.locals t).pc ≠ .panicked) :
      StepsN s ds total size nThreads w k u → StepsN s ds total size nThreads w (k + 1) (u.next s ds total size t)
  | cancel {k : Nat} {u : World} : StepsN s ds total size nThreads w k u →
      StepsN s ds total size nThreads w k { u with shared := { u.shared with stopped := true } }

theorem StepsN.steps {w v : World} {k : Nat} (h : StepsN s ds total size nT w k v) : Steps s ds total size nT w v := by
  induction h with
  | refl => exact .refl
  | thread t ht hpc _ ih => exact .step ih (.thread _ t ht hpc)
  | cancel _ ih => exact .step ih (.cancel _)

theorem Steps.count {w v : World} (h : Steps s ds total size nT w v) : ∃ k, StepsN s ds total size nT w k v := by
  induction h with
  | refl => exact ⟨0, .refl⟩
  | step _ hs ih =>
    obtain ⟨k, ih⟩ := ih
    cases hs with
    | thread t ht hpc => exact ⟨k + 1, .thread t ht hpc ih⟩
    | cancel => exact ⟨k, .cancel ih⟩

theorem Steps.trans {u v w : World} (h1 : Steps s ds total size nT u v) (h2 : Steps s ds total size nT v w) :
    Steps s ds total size nT u w := by
  induction h2 with
  | refl => exact h1
  | step _ hs ih => exact .step ih hs

/-- Every schedule is finite: the number of thread steps is bounded. -/
theorem StepsN.bound (hp : Processes s ds total c) (hsize : 0 < size) {cancelled : Bool} {w : World} {k : Nat}
    (h : StepsN s ds total size nT (World.init s r0 cancelled) k w) : k + measure total nT w ≤ 4 * total + 4 * nT := by
  induction h with
  | refl => rw [measure_init]; omega
  | thread t ht hpc hs ih =>
    obtain ⟨hist, Dr, A, Dl, hI⟩ := Inv.steps hp hsize hs.steps
    have := next_measure (size := size) hp hI ht hpc
    omega
  | cancel hs ih => exact ih

/-- No thread panics if the position counter cannot overflow. -/
theorem Steps.no_panic (hp : Processes s ds total c) (hsize : 0 < size) (hov : total + size < 2 ^ 64) {cancelled : Bool} {w : World}
    (h : Steps s ds total size nT (World.init s r0 cancelled) w) : ∀ t, (w.locals t).pc ≠ .panicked := by
  induction h with
  | refl => intro t; exact (by decide : Pc.reserve ≠ Pc.panicked)
  | step hs hstep ih =>
    cases hstep with
    | cancel => exact ih
    | thread t ht hpc =>
      obtain ⟨hist, Dr, A, Dl, hI⟩ := Inv.steps hp hsize hs
      intro u
      by_cases hu : u = t
      · subst hu
        simp only [Function.update_self]
        exact (threadStep_measure (size := size) hp hI ht hpc).2 hov
      · simp only [Function.update_of_ne hu]
        exact ih u

/-- From each reachable state all threads can run to the end, without further cancellation. -/
theorem Steps.finish (hp : Processes s ds total c) (hsize : 0 < size) (hov : total + size < 2 ^ 64) {cancelled : Bool} {w : World}
    (h : Steps s ds total size nT (World.init s r0 cancelled) w) :
    ∃ v, Steps s ds total size nT w v ∧ (∀ t < nT, (v.locals t).pc = .done) ∧ v.shared.stopped = w.shared.stopped := by
  generalize hm : measure total nT w = m
  induction m using Nat.strong_induction_on generalizing w with
  | _ m ih =>
    by_cases hall : ∀ t < nT, (w.locals t).pc = .done
    · exact ⟨w, .refl, hall, rfl⟩
    · push Not at hall
      obtain ⟨t, ht, hpc⟩ := hall
      have hpc2 : (w.locals t).pc ≠ .done ∧ (w.locals t).pc ≠ .panicked := ⟨hpc, h.no_panic hp hsize hov t⟩
      obtain ⟨hist, Dr, A, Dl, hI⟩ := Inv.steps hp hsize h
      have hlt := next_measure (size := size) hp hI ht hpc2
      have hs : Step s ds total size nT w (w.next s ds total size t) := .thread w t ht hpc2
      obtain ⟨v, h1, h2, h3⟩ := ih _ (hm ▸ hlt) (.step h hs) rfl
      refine ⟨v, (Steps.step .refl hs).trans h1, h2, h3.trans ?_⟩
      show (threadStep s ds total size (w.locals t) w.shared).2.stopped = _
      unfold threadStep
      split
      · simp only; split <;> rfl
      · split
        · rfl
        · simp only; split <;> rfl
      · rfl
      · split <;> rfl
      · rfl
      · rfl
      · rfl

end Pokers
