import Verif.Model.Locks
import Verif.Model.LocksMc
/-!
Model of the main thread of both calculations (`src/equity_calculator/simulator.rs`, lines 119-132 and 228-245) next to the spawned
threads: it receives the messages of the channel one after the other and calls the callback for each of them; the loop ends when the
channel is empty and all senders have been dropped, which happens when the threads end.

The callback is a function of the caller and can do what it wants with its clone of the cancel token.  Here it decides from the
values it has got so far, and from the new one, whether to set the token.  Others who have the token may set it at any time.
-/
namespace Pokers

/-- A callback: the earlier values and the new one; whether it sets the cancel token.
(src/equity_calculator/simulator.rs:129-131, 240-242) -/
abbrev Callback := List Nat → Nat → Bool

/-- A calculation whose threads are in the state `world`, and the values with which the callback has been called.
(src/equity_calculator/simulator.rs:119-132, 228-243) -/
structure Scope (W : Type) where
  world : W
  calls : List Nat

/-- The threads as seen by the main thread: what they can do, what they have put into the channel, and how the token is set.
(src/equity_calculator/simulator.rs:119-132, 228-243) -/
structure Threads (W : Type) where
  step : W → W → Prop
  sent : W → List Nat
  cancel : W → W

/-- src/equity_calculator/simulator.rs:129-131 and 242-244: a step of a thread, or the main thread receives a message and calls the
callback. -/
inductive ScopeStep {W : Type} (T : Threads W) (cb : Callback) : Scope W → Scope W → Prop
  | thread {x : Scope W} {w : W} (h : T.step x.world w) : ScopeStep T cb x { x with world := w }
  | receive {x : Scope W} {m : Nat} (h : (T.sent x.world)[x.calls.length]? = some m) :
      ScopeStep T cb x { world := if cb x.calls m then T.cancel x.world else x.world, calls := x.calls ++ [m] }

/-- A number of steps of the threads and of the main thread, and any number of cancellations by others.
(src/equity_calculator/simulator.rs:119-132, 228-243) -/
inductive ScopeSteps {W : Type} (T : Threads W) (cb : Callback) (x : Scope W) : Nat → Scope W → Prop
  | refl : ScopeSteps T cb x 0 x
  | step {k : Nat} {y z : Scope W} : ScopeSteps T cb x k y → ScopeStep T cb y z → ScopeSteps T cb x (k + 1) z
  | cancel {k : Nat} {y : Scope W} : ScopeSteps T cb x k y → ScopeSteps T cb x k { y with world := T.cancel y.world }

/-- The threads of the exact calculation, with their locks. (src/equity_calculator/simulator.rs:120-127) -/
def exactThreads (s : Sim) (dividers : List DividerU64) (total size nThreads : Nat) : Threads LockWorld where
  step w v := ∃ t < nThreads, w.move s dividers total size t = some v
  sent w := w.shared.sent
  cancel w := { w with shared := { w.shared with stopped := true } }

/-- The threads of the random simulation, with their lock. (src/equity_calculator/simulator.rs:229-237) -/
def approxThreads (sqrt : ℚ → ℚ) (target : ℚ) (s : Sim) (nThreads : Nat) : Threads McLockWorld where
  step w v := ∃ t < nThreads, ∃ ds, w.move sqrt target s t ds = some v
  sent w := w.shared.sent
  cancel w := { w with shared := { w.shared with stopped := true } }

/-- src/equity_calculator/simulator.rs:69-143 `exact_equity` with threads, locks, channel and callback; `calls` are the values with which
the callback is called, `cancelled` is the value of the cancel token when the threads start and `stopped` when they have finished. -/
def ExactRun (ranges : List (List Combo)) (boardMask deadMask nThreads : Nat) (cancelled stopped : Bool) (cb : Callback)
    (res : Except SimulatorError Results) (calls : List Nat) : Prop :=
  match prepareExact ranges boardMask deadMask with
  | .error e => res = .error e ∧ calls = []
  | .ok s => ∃ r0 flag dividers total size k, ∃ x : Scope LockWorld,
      startResults s = some (r0, flag) ∧ s.fastDividers = some dividers ∧ s.preflopComboCount = some total ∧
      s.reserveSize = some size ∧
      ScopeSteps (exactThreads s dividers total size nThreads) cb ⟨LockWorld.init s r0 cancelled, []⟩ k x ∧
      (∀ t < nThreads, (x.world.locals t).pc = .done) ∧ x.calls.length = x.world.shared.sent.length ∧
      res = .ok (finishResults s flag x.world.shared.results) ∧ calls = x.calls ∧ stopped = x.world.shared.stopped

/-- src/equity_calculator/simulator.rs:175-256 `approx_equity` with threads, lock, channel and callback. -/
def ApproxRun (sqrt : ℚ → ℚ) (ranges : List (List Combo)) (boardMask deadMask nThreads : Nat) (target : ℚ) (cancelled : Bool)
    (cb : Callback) (res : Except SimulatorError Results) (calls : List Nat) : Prop :=
  ∃ p, PrepareApprox ranges boardMask deadMask p ∧
    match p with
    | .error e => res = .error e ∧ calls = []
    | .ok s => ∃ r0 flag k, ∃ x : Scope McLockWorld,
        startResults s = some (r0, flag) ∧
        ScopeSteps (approxThreads sqrt target s nThreads) cb ⟨McLockWorld.init s r0 cancelled, []⟩ k x ∧
        (∀ t < nThreads, (x.world.locals t).pc = .done) ∧ x.calls.length = x.world.shared.sent.length ∧
        res = .ok (finishResults s flag x.world.shared.results) ∧ calls = x.calls

end Pokers
