import Verif.Model.Locks
import Verif.Model.LocksMc
import Verif.Model.CheckedFinish
import Verif.Model.Release
import Verif.Model.ReleaseMc
/-!
Model of the threads of both calculations (`src/equity_calculator/simulator.rs`) in any build, with locks that can be poisoned, and of
the main thread with a callback that can panic.

A thread that panics drops the guards it holds.  The standard library then marks these locks as poisoned, and every later
`lock().unwrap()` or `write().unwrap()` panics as well (lines 961, 1119, 1168).  `thread::scope` waits until all threads have ended; it
panics if its closure, which calls the callback, has panicked, or else if one of the threads has (lines 119-132 and 228-245).  The
receiver of the channel lives outside the closure, so that `send` (lines 1161 and 1169) never fails.

`Program` describes the steps of a thread between the operations on locks; the builds differ in these.
-/
namespace Pokers

/-- What a thread does next. (src/equity_calculator/simulator.rs:687-762, 992-1078) -/
inductive Kind
  /-- reserves work, under the lock on `enum_pos` (line 961) -/
  | reserve
  /-- computes without a lock -/
  | compute
  /-- adds its batch, under the lock on `results` (line 1119) -/
  | update
  /-- has ended -/
  | done
  /-- has ended with a panic -/
  | panicked
deriving DecidableEq, Repr

/-- The steps of a thread: `L` are its local variables, `R` the shared results. (src/equity_calculator/simulator.rs:687-762, 992-1078) -/
structure Program (L R : Type) where
  kind : L → Kind
  /-- a computation without a lock; it can read the cancel token; with random numbers there are several outcomes -/
  compute : L → Bool → L → Prop
  /-- `reserve_batch` (lines 962-965), with the value of `enum_pos`; `none` if a check fails -/
  reserve : L → Nat → Option (L × Nat)
  /-- `update_results` (lines 1120-1157) on the results; `none` if a check fails -/
  merge : L → R → Option R
  /-- the progress (lines 1160 and 1168), from the new results or `enum_pos` -/
  progress : R → Nat → Nat
  /-- whether the progress is computed from `enum_pos` -/
  usesPos : Bool
  /-- whether the token is set (lines 1164-1166) -/
  stop : L → R → Bool
  /-- the local variables after `update_results` -/
  after : L → L
  /-- a thread that has panicked -/
  fail : L → L

/-- The threads and what they share. (src/equity_calculator/simulator.rs:636-658) -/
structure Pool (L R : Type) where
  locals : Nat → L
  results : R
  pos : Nat
  stopped : Bool
  sent : List Nat

/-- The threads with atomic `reserve_batch` and `update_results`; a thread that panics does not affect the others.
(src/equity_calculator/simulator.rs:687-762, 992-1078, 959-966, 1117-1171) -/
inductive Program.Step {L R : Type} (P : Program L R) (nThreads : Nat) : Pool L R → Pool L R → Prop
  | compute {w : Pool L R} {t : Nat} {l : L} (ht : t < nThreads) (hk : P.kind (w.locals t) = .compute)
      (h : P.compute (w.locals t) w.stopped l) : P.Step nThreads w { w with locals := Function.update w.locals t l }
  | reserve {w : Pool L R} {t : Nat} {x : L × Nat} (ht : t < nThreads) (hk : P.kind (w.locals t) = .reserve)
      (h : P.reserve (w.locals t) w.pos = some x) :
      P.Step nThreads w { w with locals := Function.update w.locals t x.1, pos := x.2 }
  | reserveFail {w : Pool L R} {t : Nat} (ht : t < nThreads) (hk : P.kind (w.locals t) = .reserve)
      (h : P.reserve (w.locals t) w.pos = none) :
      P.Step nThreads w { w with locals := Function.update w.locals t (P.fail (w.locals t)) }
  | update {w : Pool L R} {t : Nat} {r : R} (ht : t < nThreads) (hk : P.kind (w.locals t) = .update)
      (h : P.merge (w.locals t) w.results = some r) :
      P.Step nThreads w { w with
        locals := Function.update w.locals t (P.after (w.locals t)), results := r,
        stopped := P.stop (w.locals t) r || w.stopped, sent := w.sent ++ [P.progress r w.pos] }
  | updateFail {w : Pool L R} {t : Nat} (ht : t < nThreads) (hk : P.kind (w.locals t) = .update)
      (h : P.merge (w.locals t) w.results = none) :
      P.Step nThreads w { w with locals := Function.update w.locals t (P.fail (w.locals t)) }

/-- A number of atomic steps, and any number of cancellations. (src/equity_calculator/simulator.rs:119-132, 228-243) -/
inductive Program.Steps {L R : Type} (P : Program L R) (nThreads : Nat) (w : Pool L R) : Nat → Pool L R → Prop
  | refl : P.Steps nThreads w 0 w
  | step {k : Nat} {u v : Pool L R} : P.Steps nThreads w k u → P.Step nThreads u v → P.Steps nThreads w (k + 1) v
  | cancel {k : Nat} {u : Pool L R} : P.Steps nThreads w k u → P.Steps nThreads w k { u with stopped := true }

/-- Where a thread is inside `reserve_batch` (lines 959-966) or `update_results` (lines 1117-1171). -/
inductive Place
  /-- in neither of them -/
  | outside
  /-- holds `enum_pos` (line 961) -/
  | reserving
  /-- holds `results` (line 1119) -/
  | merging
  /-- holds `results`, has added its batch (line 1157) -/
  | merged
  /-- holds `results` and `enum_pos` (line 1168) -/
  | reading
  /-- holds `results` and `enum_pos`, has computed the progress (line 1168) -/
  | computed (progress : Nat)
  /-- holds `results` and the progress (lines 1161 and 1169) -/
  | sending (progress : Nat)
  /-- holds `results`, has sent the progress (line 1164) -/
  | sent
  /-- holds `results`, about to return (line 1171) -/
  | leaving
deriving DecidableEq, Repr

/-- The threads, what they share, the owners of the two locks, and whether the locks are poisoned.
(src/equity_calculator/simulator.rs:636-658) -/
structure LockPool (L R : Type) extends Pool L R where
  places : Nat → Place
  posOwner : Option Nat
  resOwner : Option Nat
  posBad : Bool
  resBad : Bool

/-- Thread `t` panics: it drops its guards, and the locks it has held are poisoned.
(src/equity_calculator/simulator.rs:961, 1119, 1168) -/
def LockPool.panic {L R : Type} (P : Program L R) (w : LockPool L R) (t : Nat) : LockPool L R :=
  { w with
    locals := Function.update w.locals t (P.fail (w.locals t)), places := Function.update w.places t .outside,
    posOwner := if w.posOwner = some t then none else w.posOwner, posBad := w.posBad || w.posOwner == some t,
    resOwner := if w.resOwner = some t then none else w.resOwner, resBad := w.resBad || w.resOwner == some t }

/-- A step of thread `t`. (src/equity_calculator/simulator.rs:687-762, 992-1078, 959-966, 1117-1171) -/
inductive Program.Move {L R : Type} (P : Program L R) (t : Nat) : LockPool L R → LockPool L R → Prop
  | compute {w : LockPool L R} {l : L} (hp : w.places t = .outside) (hk : P.kind (w.locals t) = .compute)
      (h : P.compute (w.locals t) w.stopped l) : P.Move t w { w with locals := Function.update w.locals t l }
  /-- line 961 -/
  | lockPos {w : LockPool L R} (hp : w.places t = .outside) (hk : P.kind (w.locals t) = .reserve) (ho : w.posOwner = none)
      (hb : w.posBad = false) : P.Move t w { w with places := Function.update w.places t .reserving, posOwner := some t }
  | badPos {w : LockPool L R} (hp : w.places t = .outside) (hk : P.kind (w.locals t) = .reserve) (ho : w.posOwner = none)
      (hb : w.posBad = true) : P.Move t w (w.panic P t)
  /-- lines 962-965 -/
  | reserve {w : LockPool L R} {x : L × Nat} (hp : w.places t = .reserving) (h : P.reserve (w.locals t) w.pos = some x) :
      P.Move t w { w with
        locals := Function.update w.locals t x.1, pos := x.2, places := Function.update w.places t .outside, posOwner := none }
  | reserveFail {w : LockPool L R} (hp : w.places t = .reserving) (h : P.reserve (w.locals t) w.pos = none) :
      P.Move t w (w.panic P t)
  /-- line 1119 -/
  | lockRes {w : LockPool L R} (hp : w.places t = .outside) (hk : P.kind (w.locals t) = .update) (ho : w.resOwner = none)
      (hb : w.resBad = false) : P.Move t w { w with places := Function.update w.places t .merging, resOwner := some t }
  | badRes {w : LockPool L R} (hp : w.places t = .outside) (hk : P.kind (w.locals t) = .update) (ho : w.resOwner = none)
      (hb : w.resBad = true) : P.Move t w (w.panic P t)
  /-- lines 1120-1157 -/
  | merge {w : LockPool L R} {r : R} (hp : w.places t = .merging) (h : P.merge (w.locals t) w.results = some r) :
      P.Move t w { w with results := r, places := Function.update w.places t .merged }
  /-- a check fails; some of the results may have been changed -/
  | mergeFail {w : LockPool L R} (r : R) (hp : w.places t = .merging) (h : P.merge (w.locals t) w.results = none) :
      P.Move t w ({ w with results := r }.panic P t)
  /-- line 1168: the lock on `enum_pos` -/
  | lockRead {w : LockPool L R} (hp : w.places t = .merged) (hu : P.usesPos = true) (ho : w.posOwner = none) (hb : w.posBad = false) :
      P.Move t w { w with places := Function.update w.places t .reading, posOwner := some t }
  | badRead {w : LockPool L R} (hp : w.places t = .merged) (hu : P.usesPos = true) (ho : w.posOwner = none) (hb : w.posBad = true) :
      P.Move t w (w.panic P t)
  | read {w : LockPool L R} (hp : w.places t = .reading) :
      P.Move t w { w with places := Function.update w.places t (.computed (P.progress w.results w.pos)) }
  | unlockRead {w : LockPool L R} {p : Nat} (hp : w.places t = .computed p) :
      P.Move t w { w with places := Function.update w.places t (.sending p), posOwner := none }
  /-- line 1160 -/
  | progress {w : LockPool L R} (hp : w.places t = .merged) (hu : P.usesPos = false) :
      P.Move t w { w with places := Function.update w.places t (.sending (P.progress w.results w.pos)) }
  /-- lines 1161 and 1169 -/
  | send {w : LockPool L R} {p : Nat} (hp : w.places t = .sending p) :
      P.Move t w { w with sent := w.sent ++ [p], places := Function.update w.places t .sent }
  /-- lines 1164-1166 -/
  | stop {w : LockPool L R} (hp : w.places t = .sent) :
      P.Move t w { w with
        stopped := P.stop (w.locals t) w.results || w.stopped, places := Function.update w.places t .leaving }
  /-- line 1171 -/
  | leave {w : LockPool L R} (hp : w.places t = .leaving) :
      P.Move t w { w with
        locals := Function.update w.locals t (P.after (w.locals t)), places := Function.update w.places t .outside, resOwner := none }

/-- A callback: from the earlier values and the new one, whether it sets the cancel token; `none` if it panics.
(src/equity_calculator/simulator.rs:129-131, 240-242) -/
abbrev CallbackP := List Nat → Nat → Option Bool

/-- A call: its threads, the values with which the callback has been called, and whether it has panicked.
(src/equity_calculator/simulator.rs:119-132, 228-243) -/
structure Call (L R : Type) where
  threads : LockPool L R
  calls : List Nat
  failed : Bool

/-- src/equity_calculator/simulator.rs:119-132 and 228-245: a step of a thread, or the main thread receives a message and calls the
callback.  After a panic of the callback the main thread only waits for the threads. -/
inductive Call.Step {L R : Type} (P : Program L R) (nThreads : Nat) (cb : CallbackP) : Call L R → Call L R → Prop
  | thread {x : Call L R} {w : LockPool L R} {t : Nat} (ht : t < nThreads) (h : P.Move t x.threads w) :
      Call.Step P nThreads cb x { x with threads := w }
  | receive {x : Call L R} {m : Nat} {b : Bool} (hf : x.failed = false) (hm : x.threads.sent[x.calls.length]? = some m)
      (h : cb x.calls m = some b) :
      Call.Step P nThreads cb x { x with
        threads := { x.threads with stopped := b || x.threads.stopped }, calls := x.calls ++ [m] }
  | raise {x : Call L R} {m : Nat} (hf : x.failed = false) (hm : x.threads.sent[x.calls.length]? = some m) (h : cb x.calls m = none) :
      Call.Step P nThreads cb x { x with calls := x.calls ++ [m], failed := true }

/-- A number of steps, and any number of cancellations by others. (src/equity_calculator/simulator.rs:119-132, 228-243) -/
inductive Call.Steps {L R : Type} (P : Program L R) (nThreads : Nat) (cb : CallbackP) (x : Call L R) : Nat → Call L R → Prop
  | refl : Call.Steps P nThreads cb x 0 x
  | step {k : Nat} {y z : Call L R} : Call.Steps P nThreads cb x k y → Call.Step P nThreads cb y z → Call.Steps P nThreads cb x (k + 1) z
  | cancel {k : Nat} {y : Call L R} : Call.Steps P nThreads cb x k y →
      Call.Steps P nThreads cb x k { y with threads := { y.threads with stopped := true } }

/-- The scope is left normally: all threads have ended, none of them with a panic, and all messages have been received.
(src/equity_calculator/simulator.rs:119-132, 228-243) -/
def Call.Returns {L R : Type} (P : Program L R) (nThreads : Nat) (x : Call L R) : Prop :=
  (∀ t < nThreads, P.kind (x.threads.locals t) = .done) ∧ x.failed = false ∧ x.calls.length = x.threads.sent.length

/-- The scope is left with a panic: all threads have ended, and the callback or a thread has panicked.
(src/equity_calculator/simulator.rs:119-132, 228-243) -/
def Call.Panics {L R : Type} (P : Program L R) (nThreads : Nat) (x : Call L R) : Prop :=
  (∀ t < nThreads, P.kind (x.threads.locals t) = .done ∨ P.kind (x.threads.locals t) = .panicked) ∧
  (x.failed = true ∨
    (x.calls.length = x.threads.sent.length ∧ ∃ t < nThreads, P.kind (x.threads.locals t) = .panicked))

/-- The state when the threads are spawned. (src/equity_calculator/simulator.rs:119-127, 228-237) -/
def Call.init {L R : Type} (l : L) (r : R) (cancelled : Bool) : Call L R :=
  { threads := {
      locals := fun _ => l, results := r, pos := 0, stopped := cancelled, sent := [], places := fun _ => .outside, posOwner := none,
      resOwner := none, posBad := false, resBad := false },
    calls := [], failed := false }

/-! ## The threads of the two calculations -/

/-- What a thread of the exact calculation does next (lines 700-760). -/
def Pc.kind : Pc → Kind
  | .reserve => .reserve
  | .work => .compute
  | .check => .compute
  | .flush => .update
  | .final => .update
  | .done => .done
  | .panicked => .panicked

/-- src/equity_calculator/simulator.rs:687-761 `enumerate_all`: a thread of the exact calculation, with the parts in which the builds
differ: the end of a reservation, the work on a position, the changes of the results and the progress. -/
def exactProgram (n total : Nat) (stop : Nat → Option Nat) (process : Nat → Batch × HandStats → Option (Batch × HandStats))
    (merge : Batch → HandStats → Results → Option Results) (progress : Nat → Nat) : Program Local Results where
  kind l := l.pc.kind
  compute l stopped l' :=
    match l.pc with
    | .work =>
      match process l.pos (l.stats, l.hands) with
      | none => l' = { l with pc := .panicked }
      | some st =>
        let l := { l with stats := st.1, hands := st.2 }
        l' = if l.stats.evalCount ≥ 10000 then { l with pc := .flush } else l.advance
    | .check => l' = if stopped then { l with pc := .final } else l.advance
    | _ => False
  reserve l pos :=
    (stop pos).map fun e =>
      ({ l with pos := pos, stop := min total e, pc := if pos ≥ min total e then .final else .work }, min total e)
  merge l r := merge l.stats l.hands r
  progress _ pos := progress pos
  usesPos := true
  stop _ _ := false
  after l := l.afterUpdate n
  fail l := { l with pc := .panicked }

/-- What a thread of the random simulation does next (lines 1008-1077). -/
def McPc.kind : McPc → Kind
  | .start => .compute
  | .eval => .compute
  | .flush => .update
  | .check => .compute
  | .restart => .compute
  | .move => .compute
  | .final => .update
  | .done => .done
  | .panicked => .panicked

/-- src/equity_calculator/simulator.rs:992-1078 `sim_random_walk_monte_carlo`: a thread of the random simulation.  Its computations are
the steps `step` of the model with atomic steps, which there use nothing shared but the token. -/
def approxProgram (n : Nat) (step : McLocal → McShared → Draws → Out (McLocal × McShared))
    (merge : Batch → HandStats → Results → Option Results) (progress : Results → Nat) (below : Results → Bool) :
    Program McLocal Results where
  kind l := l.pc.kind
  compute l stopped l' := ∃ g ds g', g.stopped = stopped ∧ step l g ds = .ok (l', g') []
  reserve _ _ := none
  merge l r := merge l.stats l.hands r
  progress r _ := progress r
  usesPos := false
  stop l r := !l.finished && below r
  after l := l.afterUpdate n
  fail l := { l with pc := .panicked }

/-- The exact calculation of a debug build: every overflow is noticed. (src/equity_calculator/simulator.rs:687-762, 959-966, 1117-1171) -/
def exactDebug (s : Sim) (dividers : List DividerU64) (total size : Nat) : Program Local Results :=
  exactProgram s.nPlayers total (fun pos => fits 64 (pos + size)) (s.processPosC dividers)
    (updateResultsC id s.nPlayers s.calcExact) (fun pos => progressExact pos total)

/-- The exact calculation of a release build: counters wrap around. (src/equity_calculator/simulator.rs:687-762, 959-966, 1117-1171) -/
def exactRelease (s : Sim) (dividers : List DividerU64) (total size : Nat) : Program Local Results :=
  exactProgram s.nPlayers total (fun pos => some (wrap (pos + size))) (s.processPosR dividers)
    (fun b h r => some (updateResultsR s.nPlayers b h r)) (fun pos => progressExactF pos total)

/-- The random simulation of a debug build. (src/equity_calculator/simulator.rs:992-1078, 1117-1171) -/
def approxDebug (sqrt : ℚ → ℚ) (target : ℚ) (s : Sim) : Program McLocal Results :=
  approxProgram s.nPlayers (mcStepC sqrt target s) (updateResultsC sqrt s.nPlayers s.calcExact)
    (fun r => progressApprox r.stdev target) (fun r => r.stdev < target)

/-- src/equity_calculator/simulator.rs:1155-1158: the standard deviation in a release build -/
def Results.devR (r : Results) : Option ℚ := devF (varianceF r.batchSum r.batchSum2 r.batchCount) r.batchCount

/-- The random simulation of a release build. (src/equity_calculator/simulator.rs:992-1078, 1117-1171) -/
def approxRelease (target : ℚ) (s : Sim) : Program McLocal Results :=
  approxProgram s.nPlayers (mcStepR target s) (fun b h r => some (updateBatchR s.nPlayers b h r)) (fun r => progF target r.devR)
    (fun r => r.devR.any (· < target))

/-- How a call ends. (src/equity_calculator/simulator.rs:69-143, 175-256) -/
inductive Ended (α : Type) where
  | returned (a : α)
  | panicked

/-- The end of a call whose threads and main thread are in the state `x`; `finish` is what is done with the results, `none` if a check
fails. (src/equity_calculator/simulator.rs:120-142, 229-255) -/
def Call.EndsAs {L : Type} (P : Program L Results) (nThreads : Nat) (finish : Results → Option Results) (x : Call L Results) :
    Ended (Except SimulatorError Results) → Prop
  | .returned res => Call.Returns P nThreads x ∧ ∃ r, finish x.threads.results = some r ∧ res = .ok r
  | .panicked => Call.Panics P nThreads x ∨ (Call.Returns P nThreads x ∧ finish x.threads.results = none)

/-- src/equity_calculator/simulator.rs:69-143 `exact_equity` in a debug build: threads, locks, channel, callback and panics.  (If the number
of positions does not fit into 64 bits, or a divider cannot be computed, every thread panics before it takes a lock; there has to be
one.) -/
def ExactDebug (ranges : List (List Combo)) (boardMask deadMask nThreads : Nat) (cancelled stopped : Bool) (cb : CallbackP)
    (e : Ended (Except SimulatorError Results)) (calls : List Nat) : Prop :=
  match prepareExact ranges boardMask deadMask with
  | .error err => e = .returned (.error err) ∧ calls = []
  | .ok s =>
    match startResultsC s with
    | none => e = .panicked ∧ calls = []
    | some (r0, flag) =>
      (∃ dividers total size k, ∃ x : Call Local Results,
        s.fastDividers = some dividers ∧ s.preflopComboCount = some total ∧ s.reserveSize = some size ∧
        Call.Steps (exactDebug s dividers total size) nThreads cb (Call.init (Local.init s.nPlayers) r0 cancelled) k x ∧
        Call.EndsAs (exactDebug s dividers total size) nThreads (finishResultsC s flag) x e ∧ calls = x.calls ∧
        stopped = x.threads.stopped) ∨
      (0 < nThreads ∧ (s.fastDividers = none ∨ s.preflopComboCount = none ∨ s.reserveSize = none) ∧ e = .panicked ∧ calls = [])

/-- src/equity_calculator/simulator.rs:175-256 `approx_equity` in a debug build -/
def ApproxDebug (sqrt : ℚ → ℚ) (ranges : List (List Combo)) (boardMask deadMask nThreads : Nat) (target : ℚ) (cancelled : Bool)
    (cb : CallbackP) (e : Ended (Except SimulatorError Results)) (calls : List Nat) : Prop :=
  ∃ p, PrepareApprox ranges boardMask deadMask p ∧
    match p with
    | .error err => e = .returned (.error err) ∧ calls = []
    | .ok s =>
      match startResultsC s with
      | none => e = .panicked ∧ calls = []
      | some (r0, flag) => ∃ k, ∃ x : Call McLocal Results,
          Call.Steps (approxDebug sqrt target s) nThreads cb (Call.init (McLocal.init s.nPlayers) r0 cancelled) k x ∧
          Call.EndsAs (approxDebug sqrt target s) nThreads (finishResultsC s flag) x e ∧ calls = x.calls

/-- `exact_equity` in a release build (src/equity_calculator/simulator.rs:69-143) -/
def ExactRelease (ranges : List (List Combo)) (boardMask deadMask nThreads : Nat) (cancelled stopped : Bool) (cb : CallbackP)
    (e : Ended (Except SimulatorError Results)) (calls : List Nat) : Prop :=
  match prepareExact ranges boardMask deadMask with
  | .error err => e = .returned (.error err) ∧ calls = []
  | .ok s => ∃ r0 flag dividers size k, ∃ x : Call Local Results,
      startResults s = some (r0, flag) ∧ s.fastDividers = some dividers ∧ s.reserveSize = some size ∧
      Call.Steps (exactRelease s dividers s.preflopComboCountR size) nThreads cb (Call.init (Local.init s.nPlayers) r0 cancelled) k x ∧
      Call.EndsAs (exactRelease s dividers s.preflopComboCountR size) nThreads (fun r => some (finishResultsF s flag r)) x e ∧
      calls = x.calls ∧ stopped = x.threads.stopped

/-- `approx_equity` in a release build (src/equity_calculator/simulator.rs:175-256) -/
def ApproxRelease (ranges : List (List Combo)) (boardMask deadMask nThreads : Nat) (target : ℚ) (cancelled : Bool)
    (cb : CallbackP) (e : Ended (Except SimulatorError Results)) (calls : List Nat) : Prop :=
  ∃ p, PrepareApprox ranges boardMask deadMask p ∧
    match p with
    | .error err => e = .returned (.error err) ∧ calls = []
    | .ok s => ∃ r0 flag k, ∃ x : Call McLocal Results,
        startResults s = some (r0, flag) ∧
        Call.Steps (approxRelease target s) nThreads cb (Call.init (McLocal.init s.nPlayers) r0 cancelled) k x ∧
        Call.EndsAs (approxRelease target s) nThreads (fun r => some (finishResultsF s flag r)) x e ∧ calls = x.calls

end Pokers
