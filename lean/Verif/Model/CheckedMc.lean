import Verif.Model.Checked
import Verif.Model.MonteCarlo
/-!
The random simulation of `src/equity_calculator/simulator.rs` with the checks of a debug build: overflow of the `u64` counters and
products, and the bounds of the vector of hand counters.

The definitions follow those of `Model/MonteCarlo.lean` line by line; only the checks are new.  Theorems `C59_*` say when the two
agree.
-/
namespace Pokers

/-- src/equity_calculator/simulator.rs:1019-1022: the product of the weights of all players -/
def Walk.weightC (w : Walk) : Option Nat := (List.range MAX_PLAYERS).foldlM (fun x i => fits 64 (x * w.weights i)) 1

/-- src/equity_calculator/simulator.rs:1018-1030: complete the board and evaluate the hands -/
def evalDealC (s : Sim) (l : McLocal) (ds : Draws) : Out McLocal :=
  match subC 5 s.fixedBoard.count with
  | none => .panic
  | some k =>
    match l.walk.weightC with
    | none => .panic
    | some weight =>
      match randomizeBoard k (l.walk.used ||| s.deadMask) s.fixedBoard ds with
      | .ok board ds =>
        match evaluateHandsC s.nPlayers (s.nPlayers * NUM_HANDS) l.walk.hands weight board l.walk.lookup true (l.stats, l.hands) with
        | none => .panic
        | some st => .ok { l with stats := st.1, hands := st.2 } ds
      | .more => .more
      | .panic => .panic

/-- src/equity_calculator/simulator.rs:1117-1171 `update_results` in approximate mode -/
def McShared.updateC (sqrt : ℚ → ℚ) (target : ℚ) (s : Sim) (finished : Bool) (l : McLocal) (g : McShared) : Option McShared :=
  (updateResultsC sqrt s.nPlayers s.calcExact l.stats l.hands g.results).map fun r =>
    { results := r, stopped := if finished = false ∧ r.stdev < target then true else g.stopped,
      sent := g.sent ++ [progressApprox r.stdev target] }

/-- One step of a thread, with the checks. (src/equity_calculator/simulator.rs:992-1078, 1117-1171) -/
def mcStepC (sqrt : ℚ → ℚ) (target : ℚ) (s : Sim) (l : McLocal) (g : McShared) (ds : Draws) : Out (McLocal × McShared) :=
  match l.pc with
  | .eval =>
    match evalDealC s l ds with
    | .ok l ds => .ok ({ l with pc := if l.stats.evalCount &&& 0xfff = 0 then .flush else .move }, g) ds
    | .more => .more
    | .panic => .ok ({ l with pc := .panicked }, g) []
  | .flush =>
    match g.updateC sqrt target s false l with
    | none => .ok ({ l with pc := .panicked }, g) ds
    | some g => .ok ({ l with pc := .check, stats := Batch.init s.nPlayers, hands := HandStats.init }, g) ds
  | .final =>
    match g.updateC sqrt target s true l with
    | none => .ok ({ l with pc := .panicked }, g) ds
    | some g => .ok ({ l with pc := .done }, g) ds
  | _ => mcStep sqrt target s l g ds

/-- One step of the system with the checks.  (After a panic in `update_results` the lock on the results is poisoned and the other
threads panic as well; here they simply go on.) (src/equity_calculator/simulator.rs:992-1078, 1117-1171) -/
inductive McStepC (sqrt : ℚ → ℚ) (target : ℚ) (s : Sim) (nThreads : Nat) : McWorld → McWorld → Prop
  | thread (w : McWorld) (t : Nat) (ht : t < nThreads) (hpc : (w.locals t).pc ≠ .done ∧ (w.locals t).pc ≠ .panicked)
      (ds : Draws) (l : McLocal) (g : McShared) (h : mcStepC sqrt target s (w.locals t) w.shared ds = .ok (l, g) []) :
      McStepC sqrt target s nThreads w { locals := Function.update w.locals t l, shared := g }
  | cancel (w : McWorld) :
      McStepC sqrt target s nThreads w { w with shared := { w.shared with stopped := true } }

/-- Any number of steps with the checks. (src/equity_calculator/simulator.rs:228-243) -/
inductive McStepsC (sqrt : ℚ → ℚ) (target : ℚ) (s : Sim) (nThreads : Nat) (w : McWorld) : McWorld → Prop
  | refl : McStepsC sqrt target s nThreads w w
  | step {u v : McWorld} : McStepsC sqrt target s nThreads w u → McStepC sqrt target s nThreads u v →
      McStepsC sqrt target s nThreads w v

/-- src/equity_calculator/simulator.rs:175-256 `approx_equity` with the checks in the threads -/
def ApproxEquityC (sqrt : ℚ → ℚ) (ranges : List (List Combo)) (boardMask deadMask nThreads : Nat) (target : ℚ)
    (cancelled : Bool) (res : Except SimulatorError Results) (sent : List Nat) : Prop :=
  ∃ p, PrepareApprox ranges boardMask deadMask p ∧
    match p with
    | .error e => res = .error e ∧ sent = []
    | .ok s => ∃ r0 flag w,
        startResults s = some (r0, flag) ∧
        McStepsC sqrt target s nThreads (McWorld.init s r0 cancelled) w ∧
        (∀ t < nThreads, (w.locals t).pc = .done) ∧
        res = .ok (finishResults s flag w.shared.results) ∧ sent = w.shared.sent

end Pokers
