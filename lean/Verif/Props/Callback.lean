import Verif.Proofs.Callback
import Verif.Proofs.LocksMc
import Verif.Props.Threads
import Verif.Props.MonteCarlo
/-!
# Threads, locks, channel and callback together (C74)

`ExactRun` and `ApproxRun` (`Verif/Model/Callback.lean`) are the two calculations with every lock operation, every access to shared
data and every message as a step of its own, and with the main thread that calls the callback, which may set the cancel token.
-/
namespace Pokers
open Spec CombinedRange

/-! ## Exact calculation -/

section exact
variable {s : Sim} {ds : List DividerU64} {total size nT : Nat} {cb : Callback}

theorem threadStep_sent (l : Local) (g : Shared) :
    (threadStep s ds total size l g).2.sent = g.sent ∨ ∃ m, (threadStep s ds total size l g).2.sent = g.sent ++ [m] := by
  unfold threadStep
  cases l.pc <;> simp only
  case reserve => cases fits 64 (g.enumPos + size) <;> exact Or.inl rfl
  case work =>
    cases s.processPos ds l.pos (l.stats, l.hands) with
    | none => exact Or.inl rfl
    | some st => simp only; split <;> exact Or.inl rfl
  case check => split <;> exact Or.inl rfl
  case flush => exact Or.inr ⟨_, rfl⟩
  case final => exact Or.inr ⟨_, rfl⟩
  all_goals exact Or.inl trivial

theorem exact_grows : (exactThreads s ds total size nT).Grows := by
  constructor
  · rintro w v ⟨t, _, hm⟩
    show v.shared.sent = w.shared.sent ∨ ∃ m, v.shared.sent = w.shared.sent ++ [m]
    have hx := threadStep_sent (s := s) (ds := ds) (total := total) (size := size) (w.locals t) w.shared
    unfold LockWorld.move at hm
    simp only at hm
    split at hm
    · split at hm
      all_goals (try split at hm)
      all_goals (first | (cases hm; done) | (cases hm; first | exact Or.inl rfl | exact hx))
    all_goals (try split at hm)
    all_goals (first | (cases hm; done) | (cases hm; first | exact Or.inl rfl | exact Or.inr ⟨_, rfl⟩ | exact hx))
  · intro w; rfl

theorem threads_run {w v : LockWorld} {k : Nat} : (exactThreads s ds total size nT).Run w k v ↔ LockSteps s ds total size nT w k v := by
  constructor
  · intro h
    induction h with
    | refl => exact .refl
    | step _ hs ih => obtain ⟨t, ht, hm⟩ := hs; exact .thread t ht hm ih
    | cancel _ ih => exact .cancel ih
  · intro h
    induction h with
    | refl => exact .refl
    | thread t ht hm _ ih => exact .step ih ⟨t, ht, hm⟩
    | cancel _ ih => exact .cancel ih

/-- Cancelling changes only the token. -/
theorem threads_zero {w v : LockWorld} (h : LockSteps s ds total size nT w 0 v) :
    v.locals = w.locals ∧ v.shared.results = w.shared.results ∧ v.shared.sent = w.shared.sent := by
  generalize hk : 0 = k at h
  induction h with
  | refl => exact ⟨rfl, rfl, rfl⟩
  | thread => cases hk
  | cancel _ ih => exact ih hk

end exact

variable {ranges : List (List Combo)} {b d nT : Nat} {cancelled stopped : Bool} {cb : Callback} {res : Except SimulatorError Results}
  {calls : List Nat}

/-- Whatever the callback does, what `exact_equity` returns and the values with which it calls the callback are those of the model
with atomic steps, to which all theorems refer. -/
theorem C74_exact (h : ExactRun ranges b d nT cancelled stopped cb res calls) : ExactEquity ranges b d nT cancelled stopped res calls := by
  rw [← C48_locks]
  unfold ExactRun at h
  unfold LockedEquity
  cases hp : prepareExact ranges b d with
  | error e => rw [hp] at h; exact h
  | ok s =>
    rw [hp] at h
    obtain ⟨r0, flag, ds, total, size, k, x, h1, h2, h3, h4, h5, h6, h7, h8, h9, h10⟩ := h
    obtain ⟨j, g1, g2, _, _⟩ := h5.run exact_grows rfl
    exact ⟨r0, flag, ds, total, size, x.world, j, h1, h2, h3, h4, threads_run.1 g1, h6, h8, h9.trans (g2.eq_of_length h7), h10⟩

/-- Conversely all outcomes of that model are possible with every callback; with one that does not set the token also the final value of
the token is the same. -/
theorem C74_exact_all (h : ExactEquity ranges b d nT cancelled stopped res calls) (cb : Callback) :
    (∃ stopped', ExactRun ranges b d nT cancelled stopped' cb res calls) ∧
    ((∀ l m, cb l m = false) → ExactRun ranges b d nT cancelled stopped cb res calls) := by
  rw [← C48_locks] at h
  unfold LockedEquity at h
  unfold ExactRun
  cases hp : prepareExact ranges b d with
  | error e => rw [hp] at h; exact ⟨⟨false, h⟩, fun _ => h⟩
  | ok s =>
    rw [hp] at h
    obtain ⟨r0, flag, ds, total, size, w, k, h1, h2, h3, h4, h5, h6, h7, h8, h9⟩ := h
    obtain ⟨y, y1, y2, y3, y4⟩ := ScopeSteps.drain exact_grows w.shared.sent.length ((threads_run.2 h5).scope (cb := cb)) List.nil_prefix
      (Nat.zero_add _).symm
    obtain ⟨z1, z2, z3⟩ := threads_zero (threads_run.1 y3)
    have z : ∀ st, st = y.world.shared.stopped → _ := fun st hst => (⟨r0, flag, ds, total, size, _, y, h1, h2, h3, h4, y1, fun t ht => by rw [z1]; exact h6 t ht, by rw [y2, z3]; rfl,
      by rw [h7, z2], h8.trans y2.symm, hst⟩ : ∃ r0 flag dividers total size k, ∃ x : Scope LockWorld,
      startResults s = some (r0, flag) ∧ s.fastDividers = some dividers ∧ s.preflopComboCount = some total ∧
      s.reserveSize = some size ∧
      ScopeSteps (exactThreads s dividers total size nT) cb ⟨LockWorld.init s r0 cancelled, []⟩ k x ∧
      (∀ t < nT, (x.world.locals t).pc = .done) ∧ x.calls.length = x.world.shared.sent.length ∧
      res = .ok (finishResults s flag x.world.shared.results) ∧ calls = x.calls ∧ st = x.world.shared.stopped)
    exact ⟨⟨_, z _ rfl⟩, fun hn => z _ (by rw [y4 hn]; exact h9)⟩

/-- The callback is called at least once, with percentages that do not decrease, the last time with 100 unless somebody has set
the token. -/
theorem C74_calls (hwf : ∀ r ∈ ranges, WfRange r) (hb : CardMask b) (hd : CardMask d) (hT : 0 < nT) {r : Results}
    (h : ExactRun ranges b d nT cancelled stopped cb (.ok r) calls) :
    calls.Pairwise (· ≤ ·) ∧ (∀ x ∈ calls, x ≤ 100) ∧ calls ≠ [] ∧ (stopped = false → calls.getLast? = some 100) :=
  C45_exact_progress hwf hb hd hT (C74_exact h)

/-- Aces against kings on a flop, with a callback that sets the token as soon as it is called. -/
example (nT : Nat) : ∃ r calls stopped, ExactRun twoHands flopMask 0 nT false stopped (fun _ _ => true) (.ok r) calls := by
  obtain ⟨r, sent, h⟩ := C48_run_exists (ranges := twoHands) (b := flopMask) (d := 0) (by unfold WfRange twoHands; decide) (by unfold CardMask; decide)
    (by unfold CardMask; decide) (by decide +kernel) (by decide +kernel) (by decide) nT false
  obtain ⟨st, h⟩ := (C74_exact_all h fun _ _ => true).1
  exact ⟨r, sent, st, h⟩

/-- No deadlock and termination of the whole: the number of steps of all threads and of the main thread is bounded, and if the last
reservation does not overflow, the calculation can only stop when all threads have ended and all messages have been received. -/
theorem C74_terminates {s : Sim} {ds : List DividerU64} {total size k : Nat} {r0 : Results} {x : Scope LockWorld}
    (hr : Ready ranges b d s ds total size)
    (h : ScopeSteps (exactThreads s ds total size nT) cb ⟨LockWorld.init s r0 cancelled, []⟩ k x) :
    k ≤ 2 * (28 * total + 32 * nT) ∧
    (total + size < 2 ^ 64 → (∀ y, ¬ ScopeStep (exactThreads s ds total size nT) cb x y) →
      (∀ t < nT, (x.world.locals t).pc = .done) ∧ x.calls = x.world.shared.sent) := by
  obtain ⟨j, g1, g2, g3, g4⟩ := h.run exact_grows rfl
  obtain ⟨b1, b2⟩ := C48_terminates hr (threads_run.1 g1)
  have hl := g2.length_le
  refine ⟨by omega, fun hov hstuck => ⟨b2 hov fun u hu v hv => hstuck _ (.thread ⟨u, hu, hv⟩), ?_⟩⟩
  obtain ⟨rest, e⟩ := g2
  cases rest with
  | nil => rw [List.append_nil] at e; exact e
  | cons m rest =>
    refine absurd (ScopeStep.receive (m := m) ?_) (hstuck _)
    rw [← e, List.getElem?_append_right (le_refl _), Nat.sub_self]; rfl

/-! ## Random simulation -/

section approx
variable {sqrt : ℚ → ℚ} {target : ℚ} {s : Sim}

theorem approx_grows : (approxThreads sqrt target s nT).Grows := by
  constructor
  · rintro w v ⟨t, _, ds, hm⟩
    show v.shared.sent = w.shared.sent ∨ ∃ m, v.shared.sent = w.shared.sent ++ [m]
    unfold McLockWorld.move at hm
    simp only at hm
    split at hm
    · split at hm
      · cases hm
      · split at hm
        · split at hm
          · cases hm; exact Or.inl rfl
          · cases hm
        · rename_i hupd
          split at hm
          · rename_i hstep
            cases hm
            rw [(mcStep_local hupd rfl hstep).1]; exact Or.inl rfl
          · cases hm
    · cases hm; exact Or.inl rfl
    · cases hm; exact Or.inr ⟨_, rfl⟩
    · cases hm; exact Or.inl rfl
    · cases hm; exact Or.inl rfl
  · intro w; rfl

theorem mcThreads_run {w v : McLockWorld} {k : Nat} : (approxThreads sqrt target s nT).Run w k v ↔ McLockSteps sqrt target s nT w k v := by
  constructor
  · intro h
    induction h with
    | refl => exact .refl
    | step _ hs ih => obtain ⟨t, ht, ds, hm⟩ := hs; exact .thread t ht ds hm ih
    | cancel _ ih => exact .cancel ih
  · intro h
    induction h with
    | refl => exact .refl
    | thread t ht ds hm _ ih => exact .step ih ⟨t, ht, ds, hm⟩
    | cancel _ ih => exact .cancel ih

theorem mcThreads_zero {w v : McLockWorld} (h : McLockSteps sqrt target s nT w 0 v) :
    v.locals = w.locals ∧ v.shared.results = w.shared.results ∧ v.shared.sent = w.shared.sent := by
  generalize hk : 0 = k at h
  induction h with
  | refl => exact ⟨rfl, rfl, rfl⟩
  | thread => cases hk
  | cancel _ ih => exact ih hk

/-- For every callback, the possible outcomes of `approx_equity` with lock, channel and callback are those of the model with atomic steps,
to which all theorems refer. -/
theorem C74_approx (cb : Callback) :
    ApproxRun sqrt ranges b d nT target cancelled cb res calls ↔ ApproxEquity sqrt ranges b d nT target cancelled res calls := by
  unfold ApproxRun ApproxEquity
  refine exists_congr fun p => and_congr_right fun _ => ?_
  cases p with
  | error e => exact Iff.rfl
  | ok s =>
    simp only
    constructor
    · rintro ⟨r0, flag, k, x, h1, h2, h3, h4, h5, h6⟩
      obtain ⟨j, g1, g2, _, _⟩ := h2.run approx_grows rfl
      have g1 := mcThreads_run.1 g1
      obtain ⟨v, hv, hr⟩ := McLockRel.steps g1
      have hI := McLockInv.steps g1
      have hout : ∀ t, x.world.sections t = .outside := by
        intro t
        by_cases ht : t < nT
        · have hd := h3 t ht
          cases hs : x.world.sections t with
          | outside => rfl
          | _ => have := hI.update t (by rw [hs]; rfl); rw [hd] at this; rcases this with h | h <;> cases h
        · exact hI.idle t (by omega)
      have ho : x.world.owner = none := by
        cases ho : x.world.owner with
        | none => rfl
        | some t => have := (hI.owner t).1 ho; rw [hout t] at this; cases this
      have hdata := hr.data
      unfold McDataRel at hdata
      rw [ho] at hdata
      refine ⟨r0, flag, v, h1, hv, fun t ht => ?_, by rw [hdata.1]; exact h5, by rw [hdata.2, h6]; exact g2.eq_of_length h4⟩
      have := hr.locals t
      rw [hout t, if_neg (by decide)] at this
      rw [this]; exact h3 t ht
    · rintro ⟨r0, flag, w, h1, h2, h3, h4, h5⟩
      obtain ⟨k, hk⟩ := h2.locks
      have hk : McLockSteps sqrt target s nT (McLockWorld.init s r0 cancelled) k (McLockWorld.free w) := hk
      obtain ⟨y, y1, y2, y3, _⟩ := ScopeSteps.drain approx_grows w.shared.sent.length ((mcThreads_run.2 hk).scope (cb := cb)) List.nil_prefix
        (Nat.zero_add _).symm
      obtain ⟨z1, z2, z3⟩ := mcThreads_zero (mcThreads_run.1 y3)
      exact ⟨r0, flag, _, y, h1, y1, fun t ht => by rw [z1]; exact h3 t ht, by rw [y2, z3]; rfl, by rw [h4, z2]; rfl, h5.trans y2.symm⟩

/-- In the random simulation, two threads are never in `update_results` at the same time. -/
theorem C74_exclusive {r0 : Results} {k : Nat} {w : McLockWorld} (h : McLockSteps sqrt target s nT (McLockWorld.init s r0 cancelled) k w) {t u : Nat}
    (ht : w.sections t ≠ .outside) (hu : w.sections u ≠ .outside) : t = u := by
  have hI := McLockInv.steps h
  have hh : ∀ v, w.sections v ≠ .outside → (w.sections v).holds = true := by
    intro v hv
    cases hs : w.sections v with
    | outside => exact absurd hs hv
    | _ => rfl
  have h1 := (hI.owner t).2 (hh t ht)
  have h2 := (hI.owner u).2 (hh u hu)
  rw [h1] at h2
  exact Option.some.inj h2

/-- No deadlock in the random simulation: as long as a thread has not ended or a message has not been received, the main thread or some
thread can make a step, for suitable random values. -/
theorem C74_no_deadlock {r0 : Results} {k : Nat} {x : Scope McLockWorld} (hr : McReady ranges b d s)
    (h : ScopeSteps (approxThreads sqrt target s nT) cb ⟨McLockWorld.init s r0 cancelled, []⟩ k x)
    (hstuck : ∀ y, ¬ ScopeStep (approxThreads sqrt target s nT) cb x y) :
    (∀ t < nT, (x.world.locals t).pc = .done) ∧ x.calls = x.world.shared.sent := by
  obtain ⟨j, g1, g2, _, _⟩ := h.run approx_grows rfl
  have g1 := mcThreads_run.1 g1
  have hI := McLockInv.steps g1
  have stuck : ∀ t < nT, ∀ ds v, x.world.move sqrt target s t ds ≠ some v := fun t ht ds v hm => hstuck _ (.thread ⟨t, ht, ds, hm⟩)
  have lt : ∀ t, x.world.sections t ≠ .outside → t < nT := fun t hs => by
    by_contra hn; exact hs (hI.idle t (by omega))
  have hout : ∀ t, x.world.sections t = .outside := by
    intro t
    cases hs : x.world.sections t with
    | outside => rfl
    | _ =>
      have hm : ∃ v, x.world.move sqrt target s t [] = some v := by
        unfold McLockWorld.move; rw [hs]; exact ⟨_, rfl⟩
      obtain ⟨v, hm⟩ := hm
      exact absurd hm (stuck t (lt t (by rw [hs]; decide)) [] v)
  have ho : x.world.owner = none := by
    cases ho : x.world.owner with
    | none => rfl
    | some t => have := (hI.owner t).1 ho; rw [hout t] at this; cases this
  obtain ⟨v, hv, hrel⟩ := McLockRel.steps g1
  have hloc : ∀ t, v.locals t = x.world.locals t := fun t => by
    have := hrel.locals t
    rwa [hout t, if_neg (by decide)] at this
  constructor
  · intro t ht
    by_contra hd
    obtain ⟨hist, Dr, Dl, hi⟩ := McInv.steps hr hv
    have hp := hi.fine t ht
    rw [hloc] at hp
    have hdp : ¬ ((x.world.locals t).pc = .done ∨ (x.world.locals t).pc = .panicked) := fun h => h.elim hd hp
    by_cases hu : (x.world.locals t).pc = .flush ∨ (x.world.locals t).pc = .final
    · refine stuck t ht [] { x.world with sections := Function.update x.world.sections t .merging, owner := some t } ?_
      unfold McLockWorld.move
      simp only [hout t, if_neg hdp, if_pos hu, if_pos ho]
    · obtain ⟨ds, l, g, hst⟩ := mc_progress (target := target) hr hi ht
      rw [hloc] at hst
      have hst := (mcStep_local hu hrel.stopped.symm hst).2
      refine stuck t ht ds { x.world with locals := Function.update x.world.locals t l, shared := x.world.shared } ?_
      unfold McLockWorld.move
      simp only [hout t, if_neg hdp, if_neg hu, hst]
  · obtain ⟨rest, e⟩ := g2
    cases rest with
    | nil => rw [List.append_nil] at e; exact e
    | cons m rest =>
      refine absurd (ScopeStep.receive (m := m) ?_) (hstuck _)
      rw [← e, List.getElem?_append_right (le_refl _), Nat.sub_self]; rfl

/-- A run of the random simulation with three threads and a callback that sets the token. -/
example (sqrt : ℚ → ℚ) : ∃ r calls, ApproxRun sqrt twoHands flopMask 0 3 (1 / 100) false (fun _ _ => true) (.ok r) calls ∧ r.evalCount = 12288 := by
  obtain ⟨r, sent, h, he⟩ := two_approx sqrt _ 3 false
  exact ⟨r, sent, (C74_approx _).2 h, he⟩

end approx

end Pokers
