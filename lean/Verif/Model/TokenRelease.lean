import Verif.Model.ReleaseMc
/-!
Model of calculations of a release build whose caller writes to the cancel token at will: `Model/Token.lean` with the threads of
`Model/Release.lean` and `Model/ReleaseMc.lean`.
-/
namespace Pokers

/-- One step of the system of src/equity_calculator/simulator.rs:684-766 in a release build: thread `t` makes a step, or the caller
stores the value `v` in the token.  The index says whether the step is a thread that reads the token at line 754 and finds it
set. -/
inductive OwnerStepR (s : Sim) (dividers : List DividerU64) (total size nThreads : Nat) : Bool → World → World → Prop
  | thread (w : World) (t : Nat) (ht : t < nThreads) (hpc : (w.locals t).pc ≠ .done ∧ (w.locals t).pc ≠ .panicked) :
      OwnerStepR s dividers total size nThreads ((w.locals t).pc == .check && w.shared.stopped) w
        { locals := Function.update w.locals t (threadStepR s dividers total size (w.locals t) w.shared).1,
          shared := (threadStepR s dividers total size (w.locals t) w.shared).2 }
  | store (w : World) (v : Bool) :
      OwnerStepR s dividers total size nThreads false w { w with shared := { w.shared with stopped := v } }

/-- Any number of steps, and whether some thread found the token set. (src/equity_calculator/simulator.rs:119-132) -/
inductive OwnerStepsR (s : Sim) (dividers : List DividerU64) (total size nThreads : Nat) (w : World) : Bool → World → Prop
  | refl : OwnerStepsR s dividers total size nThreads w false w
  | step {a b : Bool} {u v : World} : OwnerStepsR s dividers total size nThreads w a u →
      OwnerStepR s dividers total size nThreads b u v → OwnerStepsR s dividers total size nThreads w (a || b) v

/-- src/equity_calculator/simulator.rs:69-143 `exact_equity` in a release build with a caller who writes to the token at will:
`seen` says whether a thread found the token set. -/
def OwnerEquityR (ranges : List (List Combo)) (boardMask deadMask nThreads : Nat) (cancelled seen : Bool)
    (res : Except SimulatorError Results) (sent : List Nat) : Prop :=
  match prepareExact ranges boardMask deadMask with
  | .error e => res = .error e ∧ sent = []
  | .ok s => ∃ r0 flag dividers size w,
      startResults s = some (r0, flag) ∧ s.fastDividers = some dividers ∧ s.reserveSize = some size ∧
      OwnerStepsR s dividers s.preflopComboCountR size nThreads (World.init s r0 cancelled) seen w ∧
      (∀ t < nThreads, (w.locals t).pc = .done) ∧
      res = .ok (finishResultsF s flag w.shared.results) ∧ sent = w.shared.sent

/-- One step of the system of src/equity_calculator/simulator.rs:992-1078 in a release build: thread `t` makes a step in which it
draws the values `ds`, or the caller stores the value `v` in the token. -/
inductive McOwnerStepR (target : ℚ) (s : Sim) (nThreads : Nat) : McWorld → McWorld → Prop
  | thread (w : McWorld) (t : Nat) (ht : t < nThreads) (hpc : (w.locals t).pc ≠ .done ∧ (w.locals t).pc ≠ .panicked)
      (ds : Draws) (l : McLocal) (g : McShared) (h : mcStepR target s (w.locals t) w.shared ds = .ok (l, g) []) :
      McOwnerStepR target s nThreads w { locals := Function.update w.locals t l, shared := g }
  | store (w : McWorld) (v : Bool) :
      McOwnerStepR target s nThreads w { w with shared := { w.shared with stopped := v } }

/-- Any number of steps. (src/equity_calculator/simulator.rs:228-243) -/
inductive McOwnerStepsR (target : ℚ) (s : Sim) (nThreads : Nat) (w : McWorld) : McWorld → Prop
  | refl : McOwnerStepsR target s nThreads w w
  | step {u v : McWorld} : McOwnerStepsR target s nThreads w u → McOwnerStepR target s nThreads u v →
      McOwnerStepsR target s nThreads w v

/-- src/equity_calculator/simulator.rs:175-256 `approx_equity` in a release build with a caller who writes to the token at will -/
def McOwnerEquityR (ranges : List (List Combo)) (boardMask deadMask nThreads : Nat) (target : ℚ) (cancelled : Bool)
    (res : Except SimulatorError Results) (sent : List Nat) : Prop :=
  ∃ p, PrepareApprox ranges boardMask deadMask p ∧
    match p with
    | .error e => res = .error e ∧ sent = []
    | .ok s => ∃ r0 flag w,
        startResults s = some (r0, flag) ∧
        McOwnerStepsR target s nThreads (McWorld.init s r0 cancelled) w ∧
        (∀ t < nThreads, (w.locals t).pc = .done) ∧
        res = .ok (finishResultsF s flag w.shared.results) ∧ sent = w.shared.sent

/-- src/equity_calculator/simulator.rs:175-256 `approx_equity` in a release build, with the value `token` that the cancel token has
when the call returns.  (The threads set it at line 1165; nothing clears it.) -/
def ApproxLeavesR (ranges : List (List Combo)) (boardMask deadMask nThreads : Nat) (target : ℚ) (cancelled : Bool)
    (r : Results) (sent : List Nat) (token : Bool) : Prop :=
  ∃ s r0 flag w, PrepareApprox ranges boardMask deadMask (.ok s) ∧ startResults s = some (r0, flag) ∧
    McStepsR target s nThreads (McWorld.init s r0 cancelled) w ∧ (∀ t < nThreads, (w.locals t).pc = .done) ∧
    r = finishResultsF s flag w.shared.results ∧ sent = w.shared.sent ∧ token = w.shared.stopped

end Pokers
