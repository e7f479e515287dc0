import Verif.Model.MonteCarlo
/-!
Model of calculations whose caller writes to the cancel token at will.

The token is an `Arc<AtomicBool>` that the caller shares with the calculation (src/equity_calculator/simulator.rs:74 and 181).
In `Step` and `McStep` the caller can only set it.  Nothing stops a caller from clearing it again while threads are running, so
here the caller stores any value at any time.  The threads themselves are unchanged.
-/
namespace Pokers

/-- One step of the system of src/equity_calculator/simulator.rs:684-766: thread `t` makes a step, or the caller stores the value
`v` in the token.  The first index says whether the step is a thread that reads the token at line 754 and finds it set, the second
is the number of steps of threads. -/
inductive OwnerStep (s : Sim) (dividers : List DividerU64) (total size nThreads : Nat) : Bool → Nat → World → World → Prop
  | thread (w : World) (t : Nat) (ht : t < nThreads) (hpc : (w.locals t).pc ≠ .done ∧ (w.locals t).pc ≠ .panicked) :
      OwnerStep s dividers total size nThreads ((w.locals t).pc == .check && w.shared.stopped) 1 w
        { locals := Function.update w.locals t (threadStep s dividers total size (w.locals t) w.shared).1,
          shared := (threadStep s dividers total size (w.locals t) w.shared).2 }
  | store (w : World) (v : Bool) :
      OwnerStep s dividers total size nThreads false 0 w { w with shared := { w.shared with stopped := v } }

/-- Any number of steps: whether some thread found the token set, and the number of steps of threads.
(src/equity_calculator/simulator.rs:119-132) -/
inductive OwnerSteps (s : Sim) (dividers : List DividerU64) (total size nThreads : Nat) (w : World) : Bool → Nat → World → Prop
  | refl : OwnerSteps s dividers total size nThreads w false 0 w
  | step {a b : Bool} {j k : Nat} {u v : World} : OwnerSteps s dividers total size nThreads w a j u →
      OwnerStep s dividers total size nThreads b k u v → OwnerSteps s dividers total size nThreads w (a || b) (j + k) v

/-- src/equity_calculator/simulator.rs:69-143 `exact_equity` with a caller who writes to the token at will: `seen` says whether a
thread found the token set. -/
def OwnerEquity (ranges : List (List Combo)) (boardMask deadMask nThreads : Nat) (cancelled seen : Bool)
    (res : Except SimulatorError Results) (sent : List Nat) : Prop :=
  match prepareExact ranges boardMask deadMask with
  | .error e => res = .error e ∧ sent = []
  | .ok s => ∃ r0 flag dividers total size k w,
      startResults s = some (r0, flag) ∧ s.fastDividers = some dividers ∧ s.preflopComboCount = some total ∧
      s.reserveSize = some size ∧
      OwnerSteps s dividers total size nThreads (World.init s r0 cancelled) seen k w ∧
      (∀ t < nThreads, (w.locals t).pc = .done) ∧
      res = .ok (finishResults s flag w.shared.results) ∧ sent = w.shared.sent

/-- One step of the system of src/equity_calculator/simulator.rs:992-1078: thread `t` makes a step in which it draws the values
`ds`, or the caller stores the value `v` in the token. -/
inductive McOwnerStep (sqrt : ℚ → ℚ) (target : ℚ) (s : Sim) (nThreads : Nat) : McWorld → McWorld → Prop
  | thread (w : McWorld) (t : Nat) (ht : t < nThreads) (hpc : (w.locals t).pc ≠ .done ∧ (w.locals t).pc ≠ .panicked)
      (ds : Draws) (l : McLocal) (g : McShared) (h : mcStep sqrt target s (w.locals t) w.shared ds = .ok (l, g) []) :
      McOwnerStep sqrt target s nThreads w { locals := Function.update w.locals t l, shared := g }
  | store (w : McWorld) (v : Bool) :
      McOwnerStep sqrt target s nThreads w { w with shared := { w.shared with stopped := v } }

/-- Any number of steps. (src/equity_calculator/simulator.rs:228-243) -/
inductive McOwnerSteps (sqrt : ℚ → ℚ) (target : ℚ) (s : Sim) (nThreads : Nat) (w : McWorld) : McWorld → Prop
  | refl : McOwnerSteps sqrt target s nThreads w w
  | step {u v : McWorld} : McOwnerSteps sqrt target s nThreads w u → McOwnerStep sqrt target s nThreads u v →
      McOwnerSteps sqrt target s nThreads w v

/-- src/equity_calculator/simulator.rs:175-256 `approx_equity` with a caller who writes to the token at will -/
def McOwnerEquity (sqrt : ℚ → ℚ) (ranges : List (List Combo)) (boardMask deadMask nThreads : Nat) (target : ℚ)
    (cancelled : Bool) (res : Except SimulatorError Results) (sent : List Nat) : Prop :=
  ∃ p, PrepareApprox ranges boardMask deadMask p ∧
    match p with
    | .error e => res = .error e ∧ sent = []
    | .ok s => ∃ r0 flag w,
        startResults s = some (r0, flag) ∧
        McOwnerSteps sqrt target s nThreads (McWorld.init s r0 cancelled) w ∧
        (∀ t < nThreads, (w.locals t).pc = .done) ∧
        res = .ok (finishResults s flag w.shared.results) ∧ sent = w.shared.sent

/-- src/equity_calculator/simulator.rs:175-256 `approx_equity`, with the value `token` that the cancel token has when the call
returns.  (The threads set it at line 1165; nothing clears it.) -/
def ApproxLeaves (sqrt : ℚ → ℚ) (ranges : List (List Combo)) (boardMask deadMask nThreads : Nat) (target : ℚ)
    (cancelled : Bool) (r : Results) (sent : List Nat) (token : Bool) : Prop :=
  ∃ s r0 flag w, PrepareApprox ranges boardMask deadMask (.ok s) ∧ startResults s = some (r0, flag) ∧
    McSteps sqrt target s nThreads (McWorld.init s r0 cancelled) w ∧ (∀ t < nThreads, (w.locals t).pc = .done) ∧
    r = finishResults s flag w.shared.results ∧ sent = w.shared.sent ∧ token = w.shared.stopped

end Pokers
