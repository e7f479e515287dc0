import Verif.Model.Release
import Verif.Model.FloatSqrt
/-!
The random simulation of `src/equity_calculator/simulator.rs` as a release build computes it: sums and products of `u64` numbers are
taken modulo `2 ^ 64` instead of being checked, and `f64` numbers are rounded as in `Model/Float.lean`.

The definitions follow those of `Model/MonteCarlo.lean` and `Model/Float.lean` line by line; only the remainders are new.  Combo indexes
and card masks do not overflow (theorems `C42_*`).  Theorems `C78_*` say what becomes of the results.
-/
namespace Pokers

/-- src/equity_calculator/simulator.rs:1019-1022: the product of the weights of all players -/
def Walk.weightR (w : Walk) : Nat := (List.range MAX_PLAYERS).foldl (fun x i => wrap (x * w.weights i)) 1

/-- src/equity_calculator/simulator.rs:1018-1030: complete the board and evaluate the hands -/
def evalDealR (s : Sim) (l : McLocal) (ds : Draws) : Out McLocal :=
  match subC 5 s.fixedBoard.count with
  | none => .panic
  | some k =>
    match randomizeBoard k (l.walk.used ||| s.deadMask) s.fixedBoard ds with
    | .ok board ds =>
      let st := evaluateHandsR s.nPlayers l.walk.hands l.walk.weightR board l.walk.lookup true (l.stats, l.hands)
      .ok { l with stats := st.1, hands := st.2 } ds
    | .more => .more
    | .panic => .panic

/-- src/equity_calculator/simulator.rs:1148-1158: the statistics of the batches, which `update_results` computes in approximate mode
besides the sums of `updateResultsR` -/
def updateBatchR (n : Nat) (b : Batch) (hb : HandStats) (r : Results) : Results :=
  let m := mergeMasksR n b ⟨r.wins, r.ties, r.winsByMask, 0, 0⟩
  let batchEquity := fl (m.batchEquity / fl (fl m.batchHands + fl eps))
  let r := updateResultsR n b hb r
  let sum := fl (r.batchSum + batchEquity)
  let sum2 := fl (r.batchSum2 + fl (batchEquity * batchEquity))
  let count := fl (r.batchCount + 1)
  { r with batchSum := sum, batchSum2 := sum2, batchCount := count, stdev := (devF (varianceF sum sum2 count) count).getD 0 }

/-- src/equity_calculator/simulator.rs:1117-1171 `update_results` in approximate mode, under the write lock on the results -/
def McShared.updateR (target : ℚ) (s : Sim) (finished : Bool) (l : McLocal) (g : McShared) : McShared :=
  let r := updateBatchR s.nPlayers l.stats l.hands g.results
  let d := devF (varianceF r.batchSum r.batchSum2 r.batchCount) r.batchCount
  { results := r, stopped := if finished = false ∧ d.any (· < target) then true else g.stopped, sent := g.sent ++ [progF target d] }

/-- One step of a thread.  (The parameters of `mcStep` only matter in the steps that are replaced here.)
(src/equity_calculator/simulator.rs:992-1078, 1117-1171) -/
def mcStepR (target : ℚ) (s : Sim) (l : McLocal) (g : McShared) (ds : Draws) : Out (McLocal × McShared) :=
  match l.pc with
  | .eval =>
    match evalDealR s l ds with
    | .ok l ds => .ok ({ l with pc := if l.stats.evalCount &&& 0xfff = 0 then .flush else .move }, g) ds
    | .more => .more
    | .panic => .ok ({ l with pc := .panicked }, g) []
  | .flush =>
    .ok ({ l with pc := .check, stats := Batch.init s.nPlayers, hands := HandStats.init }, g.updateR target s false l) ds
  | .final => .ok ({ l with pc := .done }, g.updateR target s true l) ds
  | _ => mcStep id target s l g ds

/-- One step of the system: thread `t` makes a step in which it draws the values `ds`, or the owner of the cancel token sets
it. (src/equity_calculator/simulator.rs:992-1078, 1117-1171) -/
inductive McStepR (target : ℚ) (s : Sim) (nThreads : Nat) : McWorld → McWorld → Prop
  | thread (w : McWorld) (t : Nat) (ht : t < nThreads) (hpc : (w.locals t).pc ≠ .done ∧ (w.locals t).pc ≠ .panicked)
      (ds : Draws) (l : McLocal) (g : McShared) (h : mcStepR target s (w.locals t) w.shared ds = .ok (l, g) []) :
      McStepR target s nThreads w { locals := Function.update w.locals t l, shared := g }
  | cancel (w : McWorld) :
      McStepR target s nThreads w { w with shared := { w.shared with stopped := true } }

/-- Any number of steps. (src/equity_calculator/simulator.rs:228-243) -/
inductive McStepsR (target : ℚ) (s : Sim) (nThreads : Nat) (w : McWorld) : McWorld → Prop
  | refl : McStepsR target s nThreads w w
  | step {u v : McWorld} : McStepsR target s nThreads w u → McStepR target s nThreads u v → McStepsR target s nThreads w v

/-- src/equity_calculator/simulator.rs:175-256 `approx_equity` in a release build -/
def ApproxEquityR (ranges : List (List Combo)) (boardMask deadMask nThreads : Nat) (target : ℚ) (cancelled : Bool)
    (res : Except SimulatorError Results) (sent : List Nat) : Prop :=
  ∃ p, PrepareApprox ranges boardMask deadMask p ∧
    match p with
    | .error e => res = .error e ∧ sent = []
    | .ok s => ∃ r0 flag w,
        startResults s = some (r0, flag) ∧
        McStepsR target s nThreads (McWorld.init s r0 cancelled) w ∧
        (∀ t < nThreads, (w.locals t).pc = .done) ∧
        res = .ok (finishResultsF s flag w.shared.results) ∧ sent = w.shared.sent

end Pokers
