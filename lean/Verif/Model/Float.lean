import Mathlib.Data.Int.Log
import Verif.Model.MonteCarlo
/-!
The calculations of `src/equity_calculator/simulator.rs` with floating-point numbers.

In `Model/Results.lean` the `f64` values are exact.  Here every operation on `f64` values is rounded as IEEE 754 prescribes for double
precision: to the nearest number with a significand of 53 bits, and to the one with an even significand if there are two.  Numbers from
`2 ^ 1024` on are not represented (the values here are smaller than `2 ^ 200`); a quotient with divisor zero is `none`.  The steps that
do not involve `f64` values are those of the exact model.
-/
namespace Pokers

/-- The nearest integer; the even one if there are two. (src/equity_calculator/simulator.rs:304-316, 1117-1171) -/
def roundEven (x : ℚ) : ℤ :=
  let r := x - ⌊x⌋
  if r < 1 / 2 then ⌊x⌋ else if 1 / 2 < r then ⌊x⌋ + 1 else if ⌊x⌋ % 2 = 0 then ⌊x⌋ else ⌊x⌋ + 1

/-- The distance of the `f64` numbers around `x`: 53 bits for normal numbers, multiples of `2 ^ -1074` for the smaller ones.
(src/equity_calculator/simulator.rs:304-316, 1117-1171) -/
def ulp (x : ℚ) : ℚ := 2 ^ max (Int.log 2 |x| - 52) (-1074)

/-- The `f64` number nearest to `x`. (src/equity_calculator/simulator.rs:304-316, 1117-1171) -/
def fl (x : ℚ) : ℚ := roundEven (x / ulp x) * ulp x

/-- `f64` division; `none` is a result that is not a number (or infinite). (src/equity_calculator/simulator.rs:304-316, 1148-1160) -/
def ffdiv (a b : ℚ) : Option ℚ := if b = 0 then none else some (fl (a / b))

namespace UnitResults

/-- src/equity_calculator/simulator.rs:572-575 `update_ties` -/
def updateTiesF (u : UnitResults) (weight counter : Nat) : UnitResults :=
  { u with ties := u.ties + weight, correctedTies := fl (u.correctedTies + fl (fl weight / fl counter)) }

/-- src/equity_calculator/simulator.rs:578-586 `AddAssign::add_assign` -/
def addAssignF (u o : UnitResults) : UnitResults :=
  let wins := u.wins + o.wins
  let total := u.total + o.total
  let correctedTies := fl (u.correctedTies + o.correctedTies)
  { u with
    wins := wins, ties := u.ties + o.ties, total := total, correctedTies := correctedTies,
    equity := ffdiv (fl (fl wins + correctedTies)) (fl total) }

end UnitResults

/-- src/equity_calculator/simulator.rs:1245-1301 `evaluate_hands` -/
def evaluateHandsF (n : Nat) (hands : Nat → Hand) (weight : Nat) (board : Hand) (lookup : Nat → Nat)
    (flush : Bool) (st : Batch × HandStats) : Batch × HandStats :=
  let s := scan n hands board flush
  let hs := (List.range n).foldl (fun hs i => modify hs (lookup i) (·.updateTotal weight)) st.2
  let hs :=
    if s.counter = 1 then modify hs (lookup (s.indexes 0)) (·.updateWins weight)
    else (List.range s.counter).foldl (fun hs j => modify hs (lookup (s.indexes j)) (·.updateTiesF weight s.counter)) hs
  ({ st.1 with
      winsByMask := Function.update st.1.winsByMask s.winnerMask (st.1.winsByMask s.winnerMask + weight),
      evalCount := st.1.evalCount + 1 }, hs)

/-- src/equity_calculator/simulator.rs:1129-1145: the inner loop over the players of the mask `i` -/
def mergePlayersF (n : Nat) (b : Batch) (i : Nat) (m : Merge) : Merge × Nat :=
  let winnerCount := countOnes i
  (List.range n).foldl (fun (m, actual) j =>
    if i &&& (1 <<< j) ≠ 0 then
      let p := b.playerIds j
      let m :=
        if winnerCount = 1 then
          { m with
            wins := Function.update m.wins p (m.wins p + b.winsByMask i),
            batchEquity := if p = 0 then fl (m.batchEquity + fl (b.winsByMask i)) else m.batchEquity }
        else
          { m with
            ties := Function.update m.ties p (fl (m.ties p + fl (b.winsByMask i / winnerCount : Nat))),
            batchEquity := if p = 0 then fl (m.batchEquity + fl (b.winsByMask i / winnerCount : Nat)) else m.batchEquity }
      (m, actual ||| (1 <<< p))
    else (m, actual)) (m, 0)

/-- src/equity_calculator/simulator.rs:1125-1147: the loop over the masks -/
def mergeMasksF (n : Nat) (b : Batch) (m : Merge) : Merge :=
  (List.range (1 <<< n)).foldl (fun m i =>
    let m := { m with batchHands := m.batchHands + b.winsByMask i }
    let x := mergePlayersF n b i m
    { x.1 with
      winsByMask := Function.update x.1.winsByMask x.2 (x.1.winsByMask x.2 + b.winsByMask i) }) m

/-- The variance under the square root at lines 1155-1156, computed from the sums. -/
def varianceF (sum sum2 count : ℚ) : ℚ := fl (fl (fl eps + sum2) - fl (fl (sum * sum) / count))

/-- src/equity_calculator/simulator.rs:1117-1158: the effect of `update_results` on the results.  `dev v count` is the standard
deviation `v.sqrt() / count`, `none` if that is not a number (the model then stores zero). -/
def updateResultsF (dev : ℚ → ℚ → Option ℚ) (n : Nat) (calcExact : Bool) (b : Batch) (hb : HandStats) (r : Results) : Results :=
  let hand := fun k => if k < NUM_HANDS * n then (r.handResults k).addAssignF (hb k) else r.handResults k
  let m := mergeMasksF n b ⟨r.wins, r.ties, r.winsByMask, 0, 0⟩
  let batchEquity := fl (m.batchEquity / fl (fl m.batchHands + fl eps))
  let r := { r with
    handResults := hand, wins := m.wins, ties := m.ties, winsByMask := m.winsByMask,
    evalCount := r.evalCount + b.evalCount }
  if calcExact then r
  else
    let sum := fl (r.batchSum + batchEquity)
    let sum2 := fl (r.batchSum2 + fl (batchEquity * batchEquity))
    let count := fl (r.batchCount + 1)
    { r with batchSum := sum, batchSum2 := sum2, batchCount := count, stdev := (dev (varianceF sum sum2 count) count).getD 0 }

/-- src/equity_calculator/simulator.rs:1168: the progress reported in exact mode -/
def progressExactF (enumPos total : Nat) : Nat := castU8 (fl (fl (fl enumPos / fl total) * 100))

/-- src/equity_calculator/simulator.rs:304-316 `get_equity` -/
def getEquityF (n : Nat) (r : Results) : Results :=
  let equity := (List.range n).map fun i => fl (fl (0 + fl (r.wins i)) + r.ties i)
  let sum := equity.foldl (fun s e => fl (s + e)) 0
  { r with equities := equity.map fun e => ffdiv e sum }

/-- src/equity_calculator/simulator.rs:350-363: one hand in the loop over the hands of a combo -/
def finalHandF (hand : UnitResults) (a : Agg) : UnitResults × Agg :=
  if hand.valid then
    if hand.total > 0 then
      ({ hand with
          winrate := ffdiv (fl hand.wins) (fl hand.total), tierate := ffdiv (fl hand.ties) (fl hand.total) },
       { counter := a.counter + 1, weight := a.weight + hand.weight, wins := a.wins + hand.wins, ties := a.ties + hand.ties,
         correctedTies := fl (a.correctedTies + hand.correctedTies), total := a.total + hand.total })
    else ({ hand with equity := some 0 }, a)
  else (hand, a)

/-- src/equity_calculator/simulator.rs:365-391: the combo result made from the sums -/
def finalComboF (size : Nat) (a : Agg) : UnitResults :=
  if a.counter > 0 then
    let ratio := if a.total > U64_MAX then a.total / U64_MAX + 1 else 1
    let wins := if a.total > U64_MAX then a.wins / ratio else a.wins
    let ties := if a.total > U64_MAX then a.ties / ratio else a.ties
    let total := if a.total > U64_MAX then a.total / ratio else a.total
    let correctedTies := if a.total > U64_MAX then fl (a.correctedTies / fl ratio) else a.correctedTies
    { wins := wins % 2 ^ 64, ties := ties % 2 ^ 64, total := total % 2 ^ 64, correctedTies := correctedTies,
      equity := ffdiv (fl (fl wins + correctedTies)) (fl total), winrate := ffdiv (fl wins) (fl total),
      tierate := ffdiv (fl ties) (fl total), weight := a.weight / size, rank := 255, draw := 0, valid := true }
  else UnitResults.default

/-- src/equity_calculator/simulator.rs:347-364: the loop over the `size` hands from `start` -/
def finalHandsF (start size : Nat) (hr : Nat → UnitResults) : (Nat → UnitResults) × Agg :=
  (List.range size).foldl (fun (hr, a) k =>
    let x := finalHandF (hr (start + k)) a
    (Function.update hr (start + k) x.1, x.2)) (hr, {})

/-- src/equity_calculator/simulator.rs:334-393: the loop over the combos of player `i` -/
def finalPlayerF (i : Nat) : Nat → Nat → (Nat → UnitResults) → List UnitResults → (Nat → UnitResults) × List UnitResults
  | 0, _, hr, cs => (hr, cs)
  | fuel + 1, j, hr, cs =>
    if j < NUM_HANDS then
      let x := finalHandsF (i * NUM_HANDS + j) (batchSize j) hr
      finalPlayerF i fuel (j + batchSize j) x.1 (cs ++ [finalComboF (batchSize j) x.2])
    else (hr, cs)

/-- src/equity_calculator/simulator.rs:331-396 `generate_final_data` -/
def generateFinalDataF (n : Nat) (r : Results) : Results :=
  let x := (List.range n).foldl (fun (hr, cs) i => finalPlayerF i NUM_HANDS 0 hr cs) (r.handResults, r.comboResults)
  { r with handResults := x.1, comboResults := x.2 }

/-- src/equity_calculator/simulator.rs:407-411 (also 418-422 and 442-446): add a hand -/
def BigUnitResults.addHandF (b : BigUnitResults) (h : UnitResults) : BigUnitResults :=
  { wins := b.wins + h.wins, ties := b.ties + h.ties, total := b.total + h.total,
    correctedTies := fl (b.correctedTies + h.correctedTies), weight := b.weight + h.weight }

/-- src/equity_calculator/simulator.rs:403-449: add one hand of player `i` to the two tables of sums -/
def boardHandF (i : Nat) (hand : UnitResults) (t : (Nat → BigUnitResults) × (Nat → BigUnitResults)) :
    (Nat → BigUnitResults) × (Nat → BigUnitResults) :=
  if hand.valid then
    let ranks := Function.update t.1 (i * 9 + hand.rank) ((t.1 (i * 9 + hand.rank)).addHandF hand)
    let draws := (List.range 7).foldl (fun d k =>
      if hand.draw &&& (1 <<< k) ≠ 0 then Function.update d (i * 10 + k) ((d (i * 10 + k)).addHandF hand) else d) t.2
    let draws := match nutIndex hand.draw with
      | some k => Function.update draws (i * 10 + k) ((draws (i * 10 + k)).addHandF hand)
      | none => draws
    (ranks, draws)
  else t

/-- src/equity_calculator/simulator.rs:452-487: the published numbers of one table entry -/
def boardUnitF (b : BigUnitResults) (u : UnitResults) : UnitResults :=
  if b.total > 0 then
    let ratio := if b.total > U64_MAX then b.total / U64_MAX + 1 else 1
    let wins := (b.wins / ratio) % 2 ^ 64
    let ties := (b.ties / ratio) % 2 ^ 64
    let total := (b.total / ratio) % 2 ^ 64
    let correctedTies := fl (b.correctedTies / fl ratio)
    { u with
      wins := wins, ties := ties, total := total, correctedTies := correctedTies, weight := b.weight,
      equity := ffdiv (fl (fl wins + correctedTies)) (fl total), winrate := ffdiv (fl wins) (fl total),
      tierate := ffdiv correctedTies (fl total) }
  else u

/-- src/equity_calculator/simulator.rs:399-451: the tables of sums -/
def boardTablesF (n : Nat) (hr : Nat → UnitResults) : (Nat → BigUnitResults) × (Nat → BigUnitResults) :=
  (List.range n).foldl (fun t i => (List.range NUM_HANDS).foldl (fun t j => boardHandF i (hr (i * NUM_HANDS + j)) t) t)
    (fun _ => {}, fun _ => {})

/-- src/equity_calculator/simulator.rs:397-488 `generate_board_data` -/
def generateBoardDataF (n : Nat) (r : Results) : Results :=
  let t := boardTablesF n r.handResults
  { r with
    boardResults := fun k => if k < 9 * n then boardUnitF (t.1 k) (r.boardResults k) else r.boardResults k,
    boardDraws := fun k => if k < 10 * n then boardUnitF (t.2 k) (r.boardDraws k) else r.boardDraws k }

/-- src/equity_calculator/simulator.rs:133-142: what happens to the results when all threads have finished -/
def finishResultsF (s : Sim) (flag : Nat) (r : Results) : Results :=
  let r := { r with handResults := fixHandWeights s.handRanges flag r.handResults }
  let r := getEquityF s.nPlayers r
  let r := generateFinalDataF s.nPlayers r
  if countOnes s.boardMask > 2 then generateBoardDataF s.nPlayers r else r

/-! ## `exact_equity` -/

namespace Sim

/-- src/equity_calculator/simulator.rs:764-826 `enumerate_board` -/
def enumerateBoardF (s : Sim) (ph : Nat → Hole) (weight : Nat) (used : Nat) (st : Batch × HandStats) : Batch × HandStats :=
  let hands := fun i => Hand.fromHoleCards (ph i).1 (ph i).2.1
  let lookup := fun i => NUM_HANDS * st.1.playerIds i + getCardIndex (ph i).1 (ph i).2.1
  (boardEvents s.nPlayers ph weight s.fixedBoard used).foldl
    (fun st e => evaluateHandsF s.nPlayers hands e.weight e.board lookup e.flush st) st

/-- src/equity_calculator/simulator.rs:712-748: process one position; `none` is a panic -/
def processPosF (s : Sim) (dividers : List DividerU64) (pos : Nat) (st : Batch × HandStats) : Option (Batch × HandStats) :=
  match s.decode dividers pos with
  | none => none
  | some none => some st
  | some (some (used, ph)) => some (s.enumerateBoardF ph (dealWeight s.nPlayers ph) used st)

end Sim

/-- src/equity_calculator/simulator.rs:1117-1171 `update_results` in exact mode, under the write lock on the results -/
def Shared.updateF (s : Sim) (total : Nat) (l : Local) (g : Shared) : Shared :=
  { g with
    results := updateResultsF (fun _ _ => none) s.nPlayers s.calcExact l.stats l.hands g.results,
    sent := g.sent ++ [progressExactF g.enumPos total] }

/-- One step of a thread. (src/equity_calculator/simulator.rs:687-762, 959-966, 1117-1171) -/
def threadStepF (s : Sim) (dividers : List DividerU64) (total size : Nat) (l : Local) (g : Shared) : Local × Shared :=
  match l.pc with
  | .work =>
    match s.processPosF dividers l.pos (l.stats, l.hands) with
    | none => ({ l with pc := .panicked }, g)
    | some st =>
      let l := { l with stats := st.1, hands := st.2 }
      if l.stats.evalCount ≥ 10000 then ({ l with pc := .flush }, g) else (l.advance, g)
  | .flush =>
    ({ l with pc := .check, stats := Batch.init s.nPlayers, hands := HandStats.init }, g.updateF s total l)
  | .final => ({ l with pc := .done }, g.updateF s total l)
  | _ => threadStep s dividers total size l g

/-- One step of the system: thread `t` makes a step, or the owner of the cancel token sets it.
(src/equity_calculator/simulator.rs:687-762, 959-966, 1117-1171) -/
inductive StepF (s : Sim) (dividers : List DividerU64) (total size nThreads : Nat) : World → World → Prop
  | thread (w : World) (t : Nat) (ht : t < nThreads) (hpc : (w.locals t).pc ≠ .done ∧ (w.locals t).pc ≠ .panicked) :
      StepF s dividers total size nThreads w
        { locals := Function.update w.locals t (threadStepF s dividers total size (w.locals t) w.shared).1,
          shared := (threadStepF s dividers total size (w.locals t) w.shared).2 }
  | cancel (w : World) :
      StepF s dividers total size nThreads w { w with shared := { w.shared with stopped := true } }

/-- Any number of steps. (src/equity_calculator/simulator.rs:119-132) -/
inductive StepsF (s : Sim) (dividers : List DividerU64) (total size nThreads : Nat) (w : World) : World → Prop
  | refl : StepsF s dividers total size nThreads w w
  | step {u v : World} : StepsF s dividers total size nThreads w u → StepF s dividers total size nThreads u v →
      StepsF s dividers total size nThreads w v

/-- src/equity_calculator/simulator.rs:69-143 `exact_equity` with floating-point numbers -/
def ExactEquityF (ranges : List (List Combo)) (boardMask deadMask nThreads : Nat) (cancelled stopped : Bool)
    (res : Except SimulatorError Results) (sent : List Nat) : Prop :=
  match prepareExact ranges boardMask deadMask with
  | .error e => res = .error e ∧ sent = []
  | .ok s => ∃ r0 flag dividers total size w,
      startResults s = some (r0, flag) ∧ s.fastDividers = some dividers ∧ s.preflopComboCount = some total ∧
      s.reserveSize = some size ∧
      StepsF s dividers total size nThreads (World.init s r0 cancelled) w ∧
      (∀ t < nThreads, (w.locals t).pc = .done) ∧
      res = .ok (finishResultsF s flag w.shared.results) ∧ sent = w.shared.sent ∧ stopped = w.shared.stopped

/-! ## `approx_equity` -/

/-- src/equity_calculator/simulator.rs:1117-1171 `update_results` in approximate mode; `prog` is the progress computed from the
standard deviation.  A standard deviation that is not a number is not less than the target. -/
def McShared.updateF (dev : ℚ → ℚ → Option ℚ) (prog : Option ℚ → Nat) (target : ℚ) (s : Sim) (finished : Bool) (l : McLocal)
    (g : McShared) : McShared :=
  let r := updateResultsF dev s.nPlayers s.calcExact l.stats l.hands g.results
  let d := dev (varianceF r.batchSum r.batchSum2 r.batchCount) r.batchCount
  { results := r, stopped := if finished = false ∧ d.any (· < target) then true else g.stopped, sent := g.sent ++ [prog d] }

/-- src/equity_calculator/simulator.rs:1018-1030: complete the board and evaluate the hands -/
def evalDealF (s : Sim) (l : McLocal) (ds : Draws) : Out McLocal :=
  match subC 5 s.fixedBoard.count with
  | none => .panic
  | some k =>
    match randomizeBoard k (l.walk.used ||| s.deadMask) s.fixedBoard ds with
    | .ok board ds =>
      let st := evaluateHandsF s.nPlayers l.walk.hands l.walk.weight board l.walk.lookup true (l.stats, l.hands)
      .ok { l with stats := st.1, hands := st.2 } ds
    | .more => .more
    | .panic => .panic

/-- One step of a thread.  (The parameters of `mcStep` only matter in the steps that are replaced here.)
(src/equity_calculator/simulator.rs:992-1078, 1117-1171) -/
def mcStepF (dev : ℚ → ℚ → Option ℚ) (prog : Option ℚ → Nat) (target : ℚ) (s : Sim) (l : McLocal) (g : McShared) (ds : Draws) :
    Out (McLocal × McShared) :=
  match l.pc with
  | .eval =>
    match evalDealF s l ds with
    | .ok l ds => .ok ({ l with pc := if l.stats.evalCount &&& 0xfff = 0 then .flush else .move }, g) ds
    | .more => .more
    | .panic => .ok ({ l with pc := .panicked }, g) []
  | .flush =>
    .ok ({ l with pc := .check, stats := Batch.init s.nPlayers, hands := HandStats.init }, g.updateF dev prog target s false l) ds
  | .final => .ok ({ l with pc := .done }, g.updateF dev prog target s true l) ds
  | _ => mcStep id target s l g ds

/-- One step of the system: thread `t` makes a step in which it draws the values `ds`, or the owner of the cancel token sets
it. (src/equity_calculator/simulator.rs:992-1078, 1117-1171) -/
inductive McStepF (dev : ℚ → ℚ → Option ℚ) (prog : Option ℚ → Nat) (target : ℚ) (s : Sim) (nThreads : Nat) : McWorld → McWorld → Prop
  | thread (w : McWorld) (t : Nat) (ht : t < nThreads) (hpc : (w.locals t).pc ≠ .done ∧ (w.locals t).pc ≠ .panicked)
      (ds : Draws) (l : McLocal) (g : McShared) (h : mcStepF dev prog target s (w.locals t) w.shared ds = .ok (l, g) []) :
      McStepF dev prog target s nThreads w { locals := Function.update w.locals t l, shared := g }
  | cancel (w : McWorld) :
      McStepF dev prog target s nThreads w { w with shared := { w.shared with stopped := true } }

/-- Any number of steps. (src/equity_calculator/simulator.rs:228-243) -/
inductive McStepsF (dev : ℚ → ℚ → Option ℚ) (prog : Option ℚ → Nat) (target : ℚ) (s : Sim) (nThreads : Nat) (w : McWorld) : McWorld → Prop
  | refl : McStepsF dev prog target s nThreads w w
  | step {u v : McWorld} : McStepsF dev prog target s nThreads w u → McStepF dev prog target s nThreads u v →
      McStepsF dev prog target s nThreads w v

/-- src/equity_calculator/simulator.rs:175-256 `approx_equity` with floating-point numbers, for all computations of the standard
deviation and of the progress -/
def ApproxEquityF (dev : ℚ → ℚ → Option ℚ) (prog : Option ℚ → Nat) (ranges : List (List Combo)) (boardMask deadMask nThreads : Nat)
    (target : ℚ) (cancelled : Bool) (res : Except SimulatorError Results) (sent : List Nat) : Prop :=
  ∃ p, PrepareApprox ranges boardMask deadMask p ∧
    match p with
    | .error e => res = .error e ∧ sent = []
    | .ok s => ∃ r0 flag w,
        startResults s = some (r0, flag) ∧
        McStepsF dev prog target s nThreads (McWorld.init s r0 cancelled) w ∧
        (∀ t < nThreads, (w.locals t).pc = .done) ∧
        res = .ok (finishResultsF s flag w.shared.results) ∧ sent = w.shared.sent

end Pokers
