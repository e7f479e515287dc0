import Verif.Model.MonteCarlo
/-!
Model of the write lock around `results` in the random simulation (`src/equity_calculator/simulator.rs`).

`Verif/Model/MonteCarlo.lean` treats `update_results` as a single step.  Here the acquisition and the release of the lock, the change of
the results, the message to the channel and the store to the cancel token are steps of their own.  (The lock of `enum_pos` is not
used in the random simulation.)
-/
namespace Pokers

/-- Where a thread is inside `update_results` (lines 1117-1171). -/
inductive McSection
  /-- not in it -/
  | outside
  /-- holds `results` (line 1119) -/
  | merging
  /-- has added its batch and the statistics (lines 1122-1157) -/
  | merged
  /-- has sent the progress (lines 1159-1160) -/
  | sent
  /-- has set the token if necessary (lines 1163-1166), about to return -/
  | leaving
deriving DecidableEq, Repr

/-- The threads, the shared data and the owner of the lock. (src/equity_calculator/simulator.rs:992-1078, 1117-1171) -/
structure McLockWorld where
  locals : Nat → McLocal
  sections : Nat → McSection
  shared : McShared
  owner : Option Nat

/-- src/equity_calculator/simulator.rs:1032-1034 and 1076: the local variables after `update_results` has returned -/
def McLocal.afterUpdate (n : Nat) (l : McLocal) : McLocal :=
  match l.pc with
  | .flush => { l with pc := .check, stats := Batch.init n, hands := HandStats.init }
  | _ => { l with pc := .done }

/-- The parameter `finished` of `update_results` (lines 1032 and 1076). -/
def McLocal.finished (l : McLocal) : Bool :=
  match l.pc with
  | .flush => false
  | _ => true

/-- The next step of thread `t`, drawing the values `ds`; `none` if it has to wait for the lock or has ended, or if these are not
the values of one step. (src/equity_calculator/simulator.rs:992-1078, 1117-1171) -/
def McLockWorld.move (sqrt : ℚ → ℚ) (target : ℚ) (s : Sim) (w : McLockWorld) (t : Nat) (ds : Draws) : Option McLockWorld :=
  let l := w.locals t
  match w.sections t with
  | .outside =>
    if l.pc = .done ∨ l.pc = .panicked then none
    else if l.pc = .flush ∨ l.pc = .final then
      if w.owner = none then
        some { w with sections := Function.update w.sections t .merging, owner := some t }
      else none
    else
      match mcStep sqrt target s l w.shared ds with
      | .ok (l, g) [] => some { w with locals := Function.update w.locals t l, shared := g }
      | _ => none
  | .merging =>
    some { w with
      shared := { w.shared with results := updateResults sqrt s.nPlayers s.calcExact l.stats l.hands w.shared.results },
      sections := Function.update w.sections t .merged }
  | .merged =>
    some { w with
      shared := { w.shared with sent := w.shared.sent ++ [progressApprox w.shared.results.stdev target] },
      sections := Function.update w.sections t .sent }
  | .sent =>
    some { w with
      shared := { w.shared with
        stopped := if l.finished = false ∧ w.shared.results.stdev < target then true else w.shared.stopped },
      sections := Function.update w.sections t .leaving }
  | .leaving =>
    some { w with
      locals := Function.update w.locals t (l.afterUpdate s.nPlayers),
      sections := Function.update w.sections t .outside, owner := none }

/-- A number of steps of threads, and any number of cancellations. (src/equity_calculator/simulator.rs:228-243) -/
inductive McLockSteps (sqrt : ℚ → ℚ) (target : ℚ) (s : Sim) (nThreads : Nat) (w : McLockWorld) : Nat → McLockWorld → Prop
  | refl : McLockSteps sqrt target s nThreads w 0 w
  | thread {k : Nat} {u v : McLockWorld} (t : Nat) (ht : t < nThreads) (ds : Draws) (h : u.move sqrt target s t ds = some v) :
      McLockSteps sqrt target s nThreads w k u → McLockSteps sqrt target s nThreads w (k + 1) v
  | cancel {k : Nat} {u : McLockWorld} : McLockSteps sqrt target s nThreads w k u →
      McLockSteps sqrt target s nThreads w k { u with shared := { u.shared with stopped := true } }

/-- The state when the threads are spawned. (src/equity_calculator/simulator.rs:228-237) -/
def McLockWorld.init (s : Sim) (r : Results) (cancelled : Bool) : McLockWorld :=
  { locals := (McWorld.init s r cancelled).locals, sections := fun _ => .outside, shared := (McWorld.init s r cancelled).shared,
    owner := none }

end Pokers
