import Verif.Model.Simulator
/-!
Model of the locks taken by the threads of the exact calculation (`src/equity_calculator/simulator.rs`): the mutex around
`enum_pos` and the write lock around `results`.

`Verif/Model/Simulator.lean` treats `reserve_batch` and `update_results` as single steps.  Here every acquisition and release of
a lock, every access to the shared data in between and the message to the channel are steps of their own, and a thread that
needs a lock held by another thread has to wait.
-/
namespace Pokers

/-- Where a thread is inside `reserve_batch` (lines 959-966) or `update_results` (lines 1117-1171). -/
inductive Section
  /-- in neither of them -/
  | outside
  /-- holds `enum_pos` (line 961) -/
  | reserving
  /-- holds `results` (line 1119) -/
  | merging
  /-- holds `results`, has added its batch (line 1150), needs `enum_pos` -/
  | merged
  /-- holds `results` and `enum_pos` (line 1168) -/
  | reading
  /-- holds `results` and `enum_pos`, has computed the progress -/
  | computed (progress : Nat)
  /-- holds `results` (line 1169) -/
  | sending (progress : Nat)
  /-- holds `results`, about to return (line 1171) -/
  | leaving
deriving DecidableEq, Repr

/-- The threads, the shared data and the owners of the two locks. (src/equity_calculator/simulator.rs:687-762, 959-966, 1117-1171) -/
structure LockWorld where
  locals : Nat → Local
  sections : Nat → Section
  shared : Shared
  posOwner : Option Nat
  resOwner : Option Nat

/-- src/equity_calculator/simulator.rs:751-753 and 761: the local variables after `update_results` has returned -/
def Local.afterUpdate (n : Nat) (l : Local) : Local :=
  match l.pc with
  | .flush => { l with pc := .check, stats := Batch.init n, hands := HandStats.init }
  | _ => { l with pc := .done }

/-- The next step of thread `t`; `none` if it has to wait for a lock or has ended.
(src/equity_calculator/simulator.rs:687-762, 959-966, 1117-1171) -/
def LockWorld.move (s : Sim) (dividers : List DividerU64) (total size : Nat) (w : LockWorld) (t : Nat) : Option LockWorld :=
  let x := threadStep s dividers total size (w.locals t) w.shared
  match w.sections t with
  | .outside =>
    match (w.locals t).pc with
    | .reserve =>
      if w.posOwner = none then
        some { w with sections := Function.update w.sections t .reserving, posOwner := some t }
      else none
    | .work => some { w with locals := Function.update w.locals t x.1, shared := x.2 }
    | .check => some { w with locals := Function.update w.locals t x.1, shared := x.2 }
    | .flush =>
      if w.resOwner = none then
        some { w with sections := Function.update w.sections t .merging, resOwner := some t }
      else none
    | .final =>
      if w.resOwner = none then
        some { w with sections := Function.update w.sections t .merging, resOwner := some t }
      else none
    | .done => none
    | .panicked => none
  | .reserving =>
    some { w with
      locals := Function.update w.locals t x.1, shared := x.2,
      sections := Function.update w.sections t .outside, posOwner := none }
  | .merging =>
    some { w with
      shared := { w.shared with
        results := updateResults id s.nPlayers s.calcExact (w.locals t).stats (w.locals t).hands w.shared.results },
      sections := Function.update w.sections t .merged }
  | .merged =>
    if w.posOwner = none then
      some { w with sections := Function.update w.sections t .reading, posOwner := some t }
    else none
  | .reading =>
    some { w with sections := Function.update w.sections t (.computed (progressExact w.shared.enumPos total)) }
  | .computed p => some { w with sections := Function.update w.sections t (.sending p), posOwner := none }
  | .sending p =>
    some { w with
      shared := { w.shared with sent := w.shared.sent ++ [p] },
      sections := Function.update w.sections t .leaving }
  | .leaving =>
    some { w with
      locals := Function.update w.locals t ((w.locals t).afterUpdate s.nPlayers),
      sections := Function.update w.sections t .outside, resOwner := none }

/-- A number of steps of threads, and any number of cancellations. (src/equity_calculator/simulator.rs:119-132) -/
inductive LockSteps (s : Sim) (dividers : List DividerU64) (total size nThreads : Nat) (w : LockWorld) : Nat → LockWorld → Prop
  | refl : LockSteps s dividers total size nThreads w 0 w
  | thread {k : Nat} {u v : LockWorld} (t : Nat) (ht : t < nThreads) (h : u.move s dividers total size t = some v) :
      LockSteps s dividers total size nThreads w k u → LockSteps s dividers total size nThreads w (k + 1) v
  | cancel {k : Nat} {u : LockWorld} : LockSteps s dividers total size nThreads w k u →
      LockSteps s dividers total size nThreads w k { u with shared := { u.shared with stopped := true } }

/-- The state when the threads are spawned. (src/equity_calculator/simulator.rs:119-127) -/
def LockWorld.init (s : Sim) (r : Results) (cancelled : Bool) : LockWorld :=
  { locals := (World.init s r cancelled).locals, sections := fun _ => .outside, shared := (World.init s r cancelled).shared,
    posOwner := none, resOwner := none }

end Pokers
