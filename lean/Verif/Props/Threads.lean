import Verif.Proofs.Locks
import Verif.Proofs.Exists
import Verif.Props.Totals
/-!
# The threads and their locks (C48)
-/
namespace Pokers
open Spec CombinedRange
open Finset (range)

/-- `ExactEquity` with the locks of `Verif/Model/Locks.lean`. -/
def LockedEquity (ranges : List (List Combo)) (boardMask deadMask nThreads : Nat) (cancelled stopped : Bool)
    (res : Except SimulatorError Results) (sent : List Nat) : Prop :=
  match prepareExact ranges boardMask deadMask with
  | .error e => res = .error e ∧ sent = []
  | .ok s => ∃ r0 flag dividers total size w k,
      startResults s = some (r0, flag) ∧ s.fastDividers = some dividers ∧ s.preflopComboCount = some total ∧
      s.reserveSize = some size ∧
      LockSteps s dividers total size nThreads (LockWorld.init s r0 cancelled) k w ∧
      (∀ t < nThreads, (w.locals t).pc = .done) ∧
      res = .ok (finishResults s flag w.shared.results) ∧ sent = w.shared.sent ∧ stopped = w.shared.stopped

/-- C48: the locks make `reserve_batch` and `update_results` atomic.  The runs in which every lock operation, every access to the
shared data and every message is a step of its own have exactly the outcomes of the model with atomic steps, to which all theorems
about the results refer. -/
theorem C48_locks {ranges : List (List Combo)} {b d nT : Nat} {cancelled stopped : Bool} {res : Except SimulatorError Results}
    {sent : List Nat} : LockedEquity ranges b d nT cancelled stopped res sent ↔ ExactEquity ranges b d nT cancelled stopped res sent := by
  unfold LockedEquity ExactEquity
  cases prepareExact ranges b d with
  | error e => exact Iff.rfl
  | ok s =>
    constructor
    · rintro ⟨r0, flag, ds, total, size, w, k, h1, h2, h3, h4, h5, h6, h7, h8, h9⟩
      obtain ⟨v, j, hv, hr, _⟩ := LockRel.steps h5
      have hI := LockInv.steps h5
      have hout : ∀ t, w.sections t = .outside := by
        intro t
        by_cases ht : t < nT
        · have hd := h6 t ht
          cases hs : w.sections t with
          | outside => rfl
          | reserving => have := hI.reserve t hs; rw [hd] at this; cases this
          | _ => have := hI.update t (by rw [hs]; rfl); rw [hd] at this; rcases this with h | h <;> cases h
        · exact hI.idle t (by omega)
      have ho : w.resOwner = none := by
        cases ho : w.resOwner with
        | none => rfl
        | some t => have := (hI.res t).1 ho; rw [hout t] at this; cases this
      have hdata := hr.data
      unfold DataRel at hdata
      rw [ho] at hdata
      refine ⟨r0, flag, ds, total, size, v, h1, h2, h3, h4, hv.steps, fun t ht => ?_, ?_, ?_, ?_⟩
      · have := hr.locals t
        rw [hout t] at this
        rw [this]
        exact h6 t ht
      · rw [hdata.1]; exact h7
      · rw [hdata.2]; exact h8
      · rw [hr.stopped]; exact h9
    · rintro ⟨r0, flag, ds, total, size, w, h1, h2, h3, h4, h5, h6, h7, h8, h9⟩
      obtain ⟨k, hk⟩ := h5.locks
      exact ⟨r0, flag, ds, total, size, LockWorld.free w, k, h1, h2, h3, h4, hk, h6, h7, h8, h9⟩

/-- C48: no deadlock.  Whatever the threads have done, and whenever the token was set, as long as a thread has not ended some
thread can make a step: nobody waits for ever for a lock. -/
theorem C48_no_deadlock {s : Sim} {ds : List DividerU64} {total size nT k : Nat} {r0 : Results} {cancelled : Bool} {w : LockWorld}
    (h : LockSteps s ds total size nT (LockWorld.init s r0 cancelled) k w) {t : Nat} (ht : t < nT)
    (hpc : (w.locals t).pc ≠ .done ∧ (w.locals t).pc ≠ .panicked) : ∃ u < nT, ∃ v, w.move s ds total size u = some v :=
  (LockInv.steps h).progress ht hpc

/-- C48: mutual exclusion.  Two threads are never in `update_results` at the same time, nor do two threads hold `enum_pos`. -/
theorem C48_exclusive {s : Sim} {ds : List DividerU64} {total size nT k : Nat} {r0 : Results} {cancelled : Bool} {w : LockWorld}
    (h : LockSteps s ds total size nT (LockWorld.init s r0 cancelled) k w) {t u : Nat} :
    ((w.sections t).holdsRes = true → (w.sections u).holdsRes = true → t = u) ∧
    ((w.sections t).holdsPos = true → (w.sections u).holdsPos = true → t = u) := by
  have hI := LockInv.steps h
  constructor
  · intro h1 h2
    have := (hI.res t).2 h1
    rw [(hI.res u).2 h2] at this
    exact (Option.some.inj this).symm
  · intro h1 h2
    have := (hI.pos t).2 h1
    rw [(hI.pos u).2 h2] at this
    exact (Option.some.inj this).symm

/-- C48: every schedule ends.  The number of steps of all threads together is bounded, and if the last reservation does not overflow
(`total + size < 2 ^ 64`) no thread panics, so a schedule can only stop when all threads have ended normally. -/
theorem C48_terminates {ranges : List (List Combo)} {b d : Nat} {s : Sim} {ds : List DividerU64} {total size nT k : Nat} {r0 : Results}
    {cancelled : Bool} {w : LockWorld} (hr : Ready ranges b d s ds total size)
    (h : LockSteps s ds total size nT (LockWorld.init s r0 cancelled) k w) :
    k ≤ 28 * total + 32 * nT ∧
    (total + size < 2 ^ 64 → (∀ u < nT, ∀ v, w.move s ds total size u ≠ some v) → ∀ t < nT, (w.locals t).pc = .done) := by
  obtain ⟨v, j, hv, hrel, hk⟩ := LockRel.steps h
  constructor
  · have := hv.bound hr.processes hr.size_pos
    omega
  · intro hov hstuck t ht
    by_contra hd
    have hnp : (w.locals t).pc ≠ .panicked := by
      intro hp
      have hv' := Steps.no_panic hr.processes hr.size_pos hov hv.steps t
      have hl := hrel.locals t
      by_cases hpast : (w.sections t).past = true
      · have := (LockInv.steps h).update t (past_holdsRes hpast)
        rw [hp] at this
        rcases this with h | h <;> cases h
      · rw [if_neg hpast] at hl
        rw [hl] at hv'
        exact hv' hp
    obtain ⟨u, hu, v, hv⟩ := C48_no_deadlock h ht ⟨hd, hnp⟩
    exact hstuck u hu v hv

/-- A calculation with locks exists, for aces against kings on a flop with any number of threads. -/
example (nT : Nat) : ∃ r sent, LockedEquity twoHands flopMask 0 nT false false (.ok r) sent := by
  obtain ⟨r, sent, h⟩ := two_run nT false
  exact ⟨r, sent, C48_locks.2 h⟩

/-- The premises of `C48_terminates` hold for that calculation. -/
example : ∃ s ds total size, Ready twoHands flopMask 0 s ds total size ∧ total + size < 2 ^ 64 := by
  have hok : ∃ s, prepareExact twoHands flopMask 0 = .ok s ∧ (s.combinedRanges.map (·.size)).prod + 2000000 < 2 ^ 64 := by
    refine ⟨_, rfl, ?_⟩
    decide +kernel
  obtain ⟨s, hok, hp⟩ := hok
  obtain ⟨ds, total, size, h1, h2⟩ := ready_exists (by unfold WfRange twoHands; decide) (by unfold CardMask; decide)
    (by unfold CardMask; decide) hok hp
  exact ⟨s, ds, total, size, h1, h2⟩

/-- Every valid input with a possible deal, unless the ranges are astronomically large, has a run of the calculation, for every number of
threads, with and without cancellation. -/
theorem C48_run_exists {ranges : List (List Combo)} {b d : Nat} (hwf : ∀ r ∈ ranges, WfRange r) (hb : CardMask b)
    (hd : CardMask d) (hv : validate ranges.length b d = none) (hdeal : deals (specRanges ranges) (maskCards b ++ maskCards d) ≠ [])
    (hprod : (ranges.map List.length).prod + 2000000 < 2 ^ 64) (nT : Nat) (cancelled : Bool) :
    ∃ r sent, ExactEquity ranges b d nT cancelled cancelled (.ok r) sent :=
  run_of_deal hwf hb hd hv hdeal hprod nT cancelled

end Pokers
