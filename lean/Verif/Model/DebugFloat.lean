import Verif.Model.Whole
/-!
Both calculations of `src/equity_calculator/simulator.rs` in a debug build with its floating-point numbers: the checks of
`Model/Checked.lean`, `Model/CheckedMc.lean` and `Model/CheckedFinish.lean` (`none` is a panic), the roundings of `Model/Float.lean` and
`Model/FloatSqrt.lean`, and the threads, locks and panics of `Model/Poison.lean`.

The definitions follow these files line by line; their names end in `CF`.  Floating-point operations never panic.
-/
namespace Pokers

namespace UnitResults

/-- src/equity_calculator/simulator.rs:572-575 `update_ties` -/
def updateTiesCF (u : UnitResults) (weight counter : Nat) : Option UnitResults :=
  (fits 64 (u.ties + weight)).map fun ties =>
    { u with ties := ties, correctedTies := fl (u.correctedTies + fl (fl weight / fl counter)) }

/-- src/equity_calculator/simulator.rs:578-586 `AddAssign::add_assign` -/
def addAssignCF (u o : UnitResults) : Option UnitResults := do
  let wins ← fits 64 (u.wins + o.wins)
  let ties ← fits 64 (u.ties + o.ties)
  let total ← fits 64 (u.total + o.total)
  let correctedTies := fl (u.correctedTies + o.correctedTies)
  some { u with
    wins := wins, ties := ties, total := total, correctedTies := correctedTies,
    equity := ffdiv (fl (fl wins + correctedTies)) (fl total) }

end UnitResults

/-- src/equity_calculator/simulator.rs:1245-1301 `evaluate_hands`; `len` is the length of `hand_results` -/
def evaluateHandsCF (n len : Nat) (hands : Nat → Hand) (weight : Nat) (board : Hand) (lookup : Nat → Nat)
    (flush : Bool) (st : Batch × HandStats) : Option (Batch × HandStats) := do
  let s := scan n hands board flush
  let hs ← (List.range n).foldlM (fun hs i => modifyC len hs (lookup i) (·.updateTotalC weight)) st.2
  let hs ← (if s.counter = 1 then modifyC len hs (lookup (s.indexes 0)) (·.updateWinsC weight)
    else (List.range s.counter).foldlM
      (fun hs j => modifyC len hs (lookup (s.indexes j)) (·.updateTiesCF weight s.counter)) hs)
  let wins ← fits 64 (st.1.winsByMask s.winnerMask + weight)
  let evals ← fits 64 (st.1.evalCount + 1)
  some ({ st.1 with winsByMask := Function.update st.1.winsByMask s.winnerMask wins, evalCount := evals }, hs)

/-- src/equity_calculator/simulator.rs:1129-1145: the inner loop over the players of the mask `i` -/
def mergePlayersCF (n : Nat) (b : Batch) (i : Nat) (m : Merge) : Option (Merge × Nat) :=
  let winnerCount := countOnes i
  (List.range n).foldlM (fun (x : Merge × Nat) j =>
    if i &&& (1 <<< j) ≠ 0 then do
      let p := b.playerIds j
      let m ←
        if winnerCount = 1 then
          (fits 64 (x.1.wins p + b.winsByMask i)).map fun wins =>
            { x.1 with
              wins := Function.update x.1.wins p wins,
              batchEquity := if p = 0 then fl (x.1.batchEquity + fl (b.winsByMask i)) else x.1.batchEquity }
        else
          some { x.1 with
            ties := Function.update x.1.ties p (fl (x.1.ties p + fl (b.winsByMask i / winnerCount : Nat))),
            batchEquity :=
              if p = 0 then fl (x.1.batchEquity + fl (b.winsByMask i / winnerCount : Nat)) else x.1.batchEquity }
      some (m, x.2 ||| (1 <<< p))
    else some x) (m, 0)

/-- src/equity_calculator/simulator.rs:1125-1147: the loop over the masks -/
def mergeMasksCF (n : Nat) (b : Batch) (m : Merge) : Option Merge :=
  (List.range (1 <<< n)).foldlM (fun (m : Merge) i => do
    let hands ← fits 64 (m.batchHands + b.winsByMask i)
    let x ← mergePlayersCF n b i { m with batchHands := hands }
    let wins ← fits 64 (x.1.winsByMask x.2 + b.winsByMask i)
    some { x.1 with winsByMask := Function.update x.1.winsByMask x.2 wins }) m

/-- src/equity_calculator/simulator.rs:1117-1158: the effect of `update_results` on the results -/
def updateResultsCF (dev : ℚ → ℚ → Option ℚ) (n : Nat) (calcExact : Bool) (b : Batch) (hb : HandStats) (r : Results) :
    Option Results := do
  let hand ← (List.range (NUM_HANDS * n)).foldlM (fun (hr : Nat → UnitResults) k =>
    ((hr k).addAssignCF (hb k)).map (Function.update hr k)) r.handResults
  let m ← mergeMasksCF n b ⟨r.wins, r.ties, r.winsByMask, 0, 0⟩
  let batchEquity := fl (m.batchEquity / fl (fl m.batchHands + fl eps))
  let evals ← fits 64 (r.evalCount + b.evalCount)
  let r := { r with
    handResults := hand, wins := m.wins, ties := m.ties, winsByMask := m.winsByMask, evalCount := evals }
  if calcExact then some r
  else
    let sum := fl (r.batchSum + batchEquity)
    let sum2 := fl (r.batchSum2 + fl (batchEquity * batchEquity))
    let count := fl (r.batchCount + 1)
    some { r with batchSum := sum, batchSum2 := sum2, batchCount := count,
                  stdev := (dev (varianceF sum sum2 count) count).getD 0 }

/-! ## After the threads have finished -/

/-- src/equity_calculator/simulator.rs:350-363: one hand in the loop over the hands of a combo -/
def finalHandCF (hand : UnitResults) (a : Agg) : Option (UnitResults × Agg) :=
  if hand.valid then
    if hand.total > 0 then do
      let counter ← fits 31 (a.counter + 1)
      let weight ← fits 32 (a.weight + hand.weight)
      let wins ← fits 128 (a.wins + hand.wins)
      let ties ← fits 128 (a.ties + hand.ties)
      let total ← fits 128 (a.total + hand.total)
      some ({ hand with
          winrate := ffdiv (fl hand.wins) (fl hand.total), tierate := ffdiv (fl hand.ties) (fl hand.total) },
        { counter := counter, weight := weight, wins := wins, ties := ties,
          correctedTies := fl (a.correctedTies + hand.correctedTies), total := total })
    else some ({ hand with equity := some 0 }, a)
  else some (hand, a)

/-- src/equity_calculator/simulator.rs:365-391: the combo result made from the sums -/
def finalComboCF (size : Nat) (a : Agg) : Option UnitResults :=
  if a.counter > 0 then do
    let ratio ← if a.total > U64_MAX then fits 128 (a.total / U64_MAX + 1) else some 1
    let wins ← if a.total > U64_MAX then divC a.wins ratio else some a.wins
    let ties ← if a.total > U64_MAX then divC a.ties ratio else some a.ties
    let total ← if a.total > U64_MAX then divC a.total ratio else some a.total
    let correctedTies := if a.total > U64_MAX then fl (a.correctedTies / fl ratio) else a.correctedTies
    let weight ← divC a.weight size
    some { wins := wins % 2 ^ 64, ties := ties % 2 ^ 64, total := total % 2 ^ 64, correctedTies := correctedTies,
           equity := ffdiv (fl (fl wins + correctedTies)) (fl total), winrate := ffdiv (fl wins) (fl total),
           tierate := ffdiv (fl ties) (fl total), weight := weight, rank := 255, draw := 0, valid := true }
  else some UnitResults.default

/-- src/equity_calculator/simulator.rs:347-364: the loop over the `size` hands from `start` -/
def finalHandsCF (len start size : Nat) (hr : Nat → UnitResults) : Option ((Nat → UnitResults) × Agg) :=
  (List.range size).foldlM (fun (x : (Nat → UnitResults) × Agg) k => do
    let i ← if start + k < len then some (start + k) else none
    let y ← finalHandCF (x.1 i) x.2
    some (Function.update x.1 i y.1, y.2)) (hr, {})

/-- src/equity_calculator/simulator.rs:334-393: the loop over the combos of player `i` -/
def finalPlayerCF (len i : Nat) : Nat → Nat → (Nat → UnitResults) → List UnitResults → Option ((Nat → UnitResults) × List UnitResults)
  | 0, _, hr, cs => some (hr, cs)
  | fuel + 1, j, hr, cs =>
    if j < NUM_HANDS then do
      let x ← finalHandsCF len (i * NUM_HANDS + j) (batchSize j) hr
      let c ← finalComboCF (batchSize j) x.2
      finalPlayerCF len i fuel (j + batchSize j) x.1 (cs ++ [c])
    else some (hr, cs)

/-- src/equity_calculator/simulator.rs:331-396 `generate_final_data` -/
def generateFinalDataCF (n : Nat) (r : Results) : Option Results := do
  let x ← (List.range n).foldlM (fun (x : (Nat → UnitResults) × List UnitResults) i =>
    finalPlayerCF (NUM_HANDS * n) i NUM_HANDS 0 x.1 x.2) (r.handResults, r.comboResults)
  some { r with handResults := x.1, comboResults := x.2 }

/-- src/equity_calculator/simulator.rs:407-411 (also 418-422 and 442-446): add a hand to the element `k` of a table of length `len` -/
def addHandCF (len : Nat) (t : Nat → BigUnitResults) (k : Nat) (h : UnitResults) : Option (Nat → BigUnitResults) :=
  if k < len then do
    let wins ← fits 128 ((t k).wins + h.wins)
    let ties ← fits 128 ((t k).ties + h.ties)
    let total ← fits 128 ((t k).total + h.total)
    let weight ← fits 32 ((t k).weight + h.weight)
    some (Function.update t k { wins := wins, ties := ties, total := total,
                                correctedTies := fl ((t k).correctedTies + h.correctedTies), weight := weight })
  else none

/-- src/equity_calculator/simulator.rs:403-449: add one hand of player `i` to the two tables of sums -/
def boardHandCF (n i : Nat) (hand : UnitResults) (t : (Nat → BigUnitResults) × (Nat → BigUnitResults)) :
    Option ((Nat → BigUnitResults) × (Nat → BigUnitResults)) :=
  if hand.valid then do
    let ranks ← addHandCF (9 * n) t.1 (i * 9 + hand.rank) hand
    let draws ← (List.range 7).foldlM (fun d k => do
      let bit ← shlC 8 1 k
      if hand.draw &&& bit ≠ 0 then addHandCF (10 * n) d (i * 10 + k) hand else some d) t.2
    let draws ← match nutIndex hand.draw with
      | some k => addHandCF (10 * n) draws (i * 10 + k) hand
      | none => some draws
    some (ranks, draws)
  else some t

/-- src/equity_calculator/simulator.rs:399-451: the tables of sums; `hand_results` has `NUM_HANDS * n` elements -/
def boardTablesCF (n : Nat) (hr : Nat → UnitResults) : Option ((Nat → BigUnitResults) × (Nat → BigUnitResults)) :=
  (List.range n).foldlM (fun t i => (List.range NUM_HANDS).foldlM (fun t j => do
    let k ← if i * NUM_HANDS + j < NUM_HANDS * n then some (i * NUM_HANDS + j) else none
    boardHandCF n i (hr k) t) t) (fun _ => {}, fun _ => {})

/-- src/equity_calculator/simulator.rs:397-488 `generate_board_data` -/
def generateBoardDataCF (n : Nat) (r : Results) : Option Results := do
  let t ← boardTablesCF n r.handResults
  some { r with
    boardResults := fun k => if k < 9 * n then boardUnitF (t.1 k) (r.boardResults k) else r.boardResults k,
    boardDraws := fun k => if k < 10 * n then boardUnitF (t.2 k) (r.boardDraws k) else r.boardDraws k }

/-- src/equity_calculator/simulator.rs:133-142: what happens to the results when all threads have finished -/
def finishResultsCF (s : Sim) (flag : Nat) (r : Results) : Option Results := do
  let hr ← fixHandWeightsC (NUM_HANDS * s.nPlayers) s.handRanges flag r.handResults
  let r := getEquityF s.nPlayers { r with handResults := hr }
  let r ← generateFinalDataCF s.nPlayers r
  if countOnes s.boardMask > 2 then generateBoardDataCF s.nPlayers r else some r

/-! ## The threads -/

namespace Sim

/-- src/equity_calculator/simulator.rs:764-826 `enumerate_board` -/
def enumerateBoardCF (s : Sim) (ph : Nat → Hole) (weight : Nat) (used : Nat) (st : Batch × HandStats) :
    Option (Batch × HandStats) := do
  let hands := fun i => Hand.fromHoleCards (ph i).1 (ph i).2.1
  let lookup := fun i => NUM_HANDS * st.1.playerIds i + getCardIndex (ph i).1 (ph i).2.1
  let es ← boardEventsC s.nPlayers ph weight s.fixedBoard used
  es.foldlM (fun st e => evaluateHandsCF s.nPlayers (s.nPlayers * NUM_HANDS) hands e.weight e.board lookup e.flush st) st

/-- src/equity_calculator/simulator.rs:712-748: process one position -/
def processPosCF (s : Sim) (dividers : List DividerU64) (pos : Nat) (st : Batch × HandStats) : Option (Batch × HandStats) :=
  match s.decode dividers pos with
  | none => none
  | some none => some st
  | some (some (used, ph)) => do
    let weight ← dealWeightC s.nPlayers ph
    s.enumerateBoardCF ph weight used st

end Sim

/-- src/equity_calculator/simulator.rs:1018-1030: complete the board and evaluate the hands -/
def evalDealCF (s : Sim) (l : McLocal) (ds : Draws) : Out McLocal :=
  match subC 5 s.fixedBoard.count with
  | none => .panic
  | some k =>
    match l.walk.weightC with
    | none => .panic
    | some weight =>
      match randomizeBoard k (l.walk.used ||| s.deadMask) s.fixedBoard ds with
      | .ok board ds =>
        match evaluateHandsCF s.nPlayers (s.nPlayers * NUM_HANDS) l.walk.hands weight board l.walk.lookup true (l.stats, l.hands) with
        | none => .panic
        | some st => .ok { l with stats := st.1, hands := st.2 } ds
      | .more => .more
      | .panic => .panic

/-- A computation of a thread of the random simulation.  (The updates of the results are separate steps; the parameters of `mcStep`
only matter there.) (src/equity_calculator/simulator.rs:992-1078, 1117-1171) -/
def mcStepCF (s : Sim) (l : McLocal) (g : McShared) (ds : Draws) : Out (McLocal × McShared) :=
  match l.pc with
  | .eval =>
    match evalDealCF s l ds with
    | .ok l ds => .ok ({ l with pc := if l.stats.evalCount &&& 0xfff = 0 then .flush else .move }, g) ds
    | .more => .more
    | .panic => .ok ({ l with pc := .panicked }, g) []
  | _ => mcStep id 0 s l g ds

/-- The exact calculation of a debug build. (src/equity_calculator/simulator.rs:687-762, 959-966, 1117-1171) -/
def exactDebugF (s : Sim) (dividers : List DividerU64) (total size : Nat) : Program Local Results :=
  exactProgram s.nPlayers total (fun pos => fits 64 (pos + size)) (s.processPosCF dividers)
    (updateResultsCF (fun _ _ => none) s.nPlayers s.calcExact) (fun pos => progressExactF pos total)

/-- The random simulation of a debug build. (src/equity_calculator/simulator.rs:992-1078, 1117-1171) -/
def approxDebugF (target : ℚ) (s : Sim) : Program McLocal Results :=
  approxProgram s.nPlayers (mcStepCF s) (updateResultsCF devF s.nPlayers s.calcExact) (fun r => progF target r.devR)
    (fun r => r.devR.any (· < target))

/-- src/equity_calculator/simulator.rs:69-143 `exact_equity` in a debug build, with floating-point numbers, threads, locks, channel,
callback and panics -/
def ExactDebugF (ranges : List (List Combo)) (boardMask deadMask nThreads : Nat) (cancelled stopped : Bool) (cb : CallbackP)
    (e : Ended (Except SimulatorError Results)) (calls : List Nat) : Prop :=
  match prepareExact ranges boardMask deadMask with
  | .error err => e = .returned (.error err) ∧ calls = []
  | .ok s =>
    match startResultsC s with
    | none => e = .panicked ∧ calls = []
    | some (r0, flag) =>
      (∃ dividers total size k, ∃ x : Call Local Results,
        s.fastDividers = some dividers ∧ s.preflopComboCount = some total ∧ s.reserveSize = some size ∧
        Call.Steps (exactDebugF s dividers total size) nThreads cb (Call.init (Local.init s.nPlayers) r0 cancelled) k x ∧
        Call.EndsAs (exactDebugF s dividers total size) nThreads (finishResultsCF s flag) x e ∧ calls = x.calls ∧
        stopped = x.threads.stopped) ∨
      (0 < nThreads ∧ (s.fastDividers = none ∨ s.preflopComboCount = none ∨ s.reserveSize = none) ∧ e = .panicked ∧ calls = [])

/-- src/equity_calculator/simulator.rs:175-256 `approx_equity` in a debug build, with floating-point numbers, threads, locks, channel,
callback and panics -/
def ApproxDebugF (ranges : List (List Combo)) (boardMask deadMask nThreads : Nat) (target : ℚ) (cancelled : Bool)
    (cb : CallbackP) (e : Ended (Except SimulatorError Results)) (calls : List Nat) : Prop :=
  ∃ p, PrepareApprox ranges boardMask deadMask p ∧
    match p with
    | .error err => e = .returned (.error err) ∧ calls = []
    | .ok s =>
      match startResultsC s with
      | none => e = .panicked ∧ calls = []
      | some (r0, flag) => ∃ k, ∃ x : Call McLocal Results,
          Call.Steps (approxDebugF target s) nThreads cb (Call.init (McLocal.init s.nPlayers) r0 cancelled) k x ∧
          Call.EndsAs (approxDebugF target s) nThreads (finishResultsCF s flag) x e ∧ calls = x.calls

/-- README.md:44-58 with `exact_equity`, in a debug build -/
def WholeDebugF (lower : List Char → List Char) (texts : List (List Char)) (boardText deadText : List Char) (nThreads : Nat)
    (cancelled stopped : Bool) (cb : CallbackP) (e : Ended (Except SimulatorError Results)) (calls : List Nat) : Prop :=
  match fromStrings lower texts with
  | .error _ => e = .panicked ∧ calls = []
  | .ok ranges => ExactDebugF ranges (getCardMask lower boardText) (getCardMask lower deadText) nThreads cancelled stopped cb e calls

/-- README.md:44-58, in a debug build -/
def WholeApproxDebugF (lower : List Char → List Char) (texts : List (List Char)) (boardText deadText : List Char) (nThreads : Nat)
    (target : ℚ) (cancelled : Bool) (cb : CallbackP) (e : Ended (Except SimulatorError Results)) (calls : List Nat) : Prop :=
  match fromStrings lower texts with
  | .error _ => e = .panicked ∧ calls = []
  | .ok ranges => ApproxDebugF ranges (getCardMask lower boardText) (getCardMask lower deadText) nThreads target cancelled cb e calls

end Pokers
