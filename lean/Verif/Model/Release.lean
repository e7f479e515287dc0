import Verif.Model.Float
/-!
The exact calculation of `src/equity_calculator/simulator.rs` as a release build computes it: sums and products of `u64` numbers are
taken modulo `2 ^ 64` instead of being checked, and `f64` numbers are rounded as in `Model/Float.lean`.

The definitions follow those of `Model/Board.lean` and `Model/Float.lean` line by line; only the remainders are new.  The `u8` suit
counters (at most 7, plus at most 5 cards) and the arithmetic of `decode` and of the divisions (theorems `C25_*`, `C28_*`) do not
overflow.  Theorems `C75_*` say what becomes of the results.
-/
namespace Pokers

/-- The result of a `u64` operation in a release build. (src/equity_calculator/simulator.rs:562-590, 1117-1171, 1299-1300) -/
def wrap (x : Nat) : Nat := x % 2 ^ 64

/-! ## The boards -/

/-- src/equity_calculator/simulator.rs:848-859: the last card when no flush is possible -/
def lastNoFlushR (board : Hand) (deck : List Nat) (weight : Nat) : Nat → Nat → List Ev
  | 0, _ => []
  | fuel + 1, i =>
    if i < deck.length then
      let newBoard := board + CARDS (deck.getD i 0)
      let rank := deck.getD i 0 >>> 2
      let r := sameRankLoop deck rank deck.length 1 (i + 1)
      ⟨wrap (weight * r.1), newBoard, false⟩ :: lastNoFlushR board deck weight fuel r.2
    else []

/-- src/equity_calculator/simulator.rs:861-881: the last card when a flush is possible -/
def lastFlushR (board : Hand) (deck : List Nat) (sc : Nat → Nat) (weight : Nat) : Nat → Nat → Nat → List Ev
  | 0, _, _ => []
  | fuel + 1, lastRank, i =>
    if i < deck.length then
      let c := deck.getD i 0
      if sc (c &&& 3) < 4 then
        let rank := c >>> 2
        if rank = lastRank then lastFlushR board deck sc weight fuel lastRank (i + 1)
        else
          let multiplier := countLoop deck sc rank deck.length 1 (i + 1)
          ⟨wrap (weight * multiplier), board + CARDS c, true⟩ :: lastFlushR board deck sc weight fuel rank (i + 1)
      else ⟨wrap (weight * 1), board + CARDS c, true⟩ :: lastFlushR board deck sc weight fuel lastRank (i + 1)
    else []

/-- src/equity_calculator/simulator.rs:905-933: the loop over the number `repeats` of irrelevant cards that are used -/
def repeatLoopR (child : RecCall) (r i cnt weight : Nat) :
    Nat → Nat → Hand → List Nat → (Nat → Nat) → List Ev × Bufs
  | 0, _, _, deck, sc => ([], deck, sc)
  | fuel + 1, repeats, newBoard, deck, sc =>
    let newWeight := wrap ((BINOM_COEFF.getD cnt []).getD repeats 0 * weight)
    let newBoard := newBoard + CARDS (deck.getD (i + repeats - 1) 0)
    if repeats = r then
      let rest := repeatLoopR child r i cnt weight fuel (repeats + 1) newBoard deck sc
      (⟨newWeight, newBoard, true⟩ :: rest.1, rest.2)
    else
      let x := child newBoard deck sc (r - repeats) (i + cnt) newWeight
      let rest := repeatLoopR child r i cnt weight fuel (repeats + 1) newBoard x.2.1 x.2.2
      (x.1 ++ rest.1, rest.2)

/-- src/equity_calculator/simulator.rs:886-956: the main loop -/
def boardLoopR (child : RecCall) (board : Hand) (r weight : Nat) :
    Nat → Nat → List Nat → (Nat → Nat) → List Ev × Bufs
  | 0, _, deck, sc => ([], deck, sc)
  | fuel + 1, i, deck, sc =>
    if i < deck.length then
      let suit := deck.getD i 0 &&& 3
      if sc suit + r < 5 then
        let g := gatherLoop sc r (deck.getD i 0 >>> 2) i deck.length (i + 1) deck 1
        let x := repeatLoopR child r i g.2 weight (min g.2 r) 1 board g.1 sc
        let rest := boardLoopR child board r weight fuel (i + (g.2 - 1) + 1) x.2.1 x.2.2
        (x.1 ++ rest.1, rest.2)
      else
        let newBoard := board + CARDS (deck.getD i 0)
        let sc1 := Function.update sc suit (sc suit + 1)
        let x := child newBoard deck sc1 (r - 1) (i + 1) weight
        let sc2 := Function.update x.2.2 suit (x.2.2 suit - 1)
        let rest := boardLoopR child board r weight fuel (i + 1) x.2.1 sc2
        (x.1 ++ rest.1, rest.2)
    else ([], deck, sc)

/-- src/equity_calculator/simulator.rs:828-957 `enumerate_board_rec` -/
def enumerateBoardRecR : Nat → RecCall
  | 0, _, deck, sc, _, _, _ => ([], deck, sc)
  | depth + 1, board, deck, sc, r, start, weight =>
    if r = 1 then
      if sc 0 < 4 ∧ sc 1 < 4 ∧ sc 2 < 4 ∧ sc 3 < 4 then
        (lastNoFlushR board deck weight deck.length start, deck, sc)
      else (lastFlushR board deck sc weight deck.length 255 start, deck, sc)
    else boardLoopR (enumerateBoardRecR depth) board r weight deck.length start deck sc

/-- src/equity_calculator/simulator.rs:782-825: the calls of `evaluate_hands` made by `enumerate_board` -/
def boardEventsR (n : Nat) (holes : Nat → Hole) (weight : Nat) (board : Hand) (usedMask : Nat) : List Ev :=
  let r := BOARD_CARDS - board.count
  if r = 0 then [⟨weight, board, true⟩]
  else (enumerateBoardRecR r board (makeDeck usedMask) (suitCounts n holes board) r 0 weight).1

/-! ## The counters -/

namespace UnitResults

/-- src/equity_calculator/simulator.rs:564-566 `update_total` -/
def updateTotalR (u : UnitResults) (weight : Nat) : UnitResults := { u with total := wrap (u.total + weight) }

/-- src/equity_calculator/simulator.rs:568-570 `update_wins` -/
def updateWinsR (u : UnitResults) (weight : Nat) : UnitResults := { u with wins := wrap (u.wins + weight) }

/-- src/equity_calculator/simulator.rs:572-575 `update_ties` -/
def updateTiesR (u : UnitResults) (weight counter : Nat) : UnitResults :=
  { u with ties := wrap (u.ties + weight), correctedTies := fl (u.correctedTies + fl (fl weight / fl counter)) }

/-- src/equity_calculator/simulator.rs:578-586 `AddAssign::add_assign` -/
def addAssignR (u o : UnitResults) : UnitResults :=
  let wins := wrap (u.wins + o.wins)
  let total := wrap (u.total + o.total)
  let correctedTies := fl (u.correctedTies + o.correctedTies)
  { u with
    wins := wins, ties := wrap (u.ties + o.ties), total := total, correctedTies := correctedTies,
    equity := ffdiv (fl (fl wins + correctedTies)) (fl total) }

end UnitResults

/-- src/equity_calculator/simulator.rs:1245-1301 `evaluate_hands` -/
def evaluateHandsR (n : Nat) (hands : Nat → Hand) (weight : Nat) (board : Hand) (lookup : Nat → Nat)
    (flush : Bool) (st : Batch × HandStats) : Batch × HandStats :=
  let s := scan n hands board flush
  let hs := (List.range n).foldl (fun hs i => modify hs (lookup i) (·.updateTotalR weight)) st.2
  let hs :=
    if s.counter = 1 then modify hs (lookup (s.indexes 0)) (·.updateWinsR weight)
    else (List.range s.counter).foldl (fun hs j => modify hs (lookup (s.indexes j)) (·.updateTiesR weight s.counter)) hs
  ({ st.1 with
      winsByMask := Function.update st.1.winsByMask s.winnerMask (wrap (st.1.winsByMask s.winnerMask + weight)),
      evalCount := wrap (st.1.evalCount + 1) }, hs)

/-- src/equity_calculator/simulator.rs:1129-1145: the inner loop over the players of the mask `i` -/
def mergePlayersR (n : Nat) (b : Batch) (i : Nat) (m : Merge) : Merge × Nat :=
  let winnerCount := countOnes i
  (List.range n).foldl (fun (m, actual) j =>
    if i &&& (1 <<< j) ≠ 0 then
      let p := b.playerIds j
      let m :=
        if winnerCount = 1 then
          { m with
            wins := Function.update m.wins p (wrap (m.wins p + b.winsByMask i)),
            batchEquity := if p = 0 then fl (m.batchEquity + fl (b.winsByMask i)) else m.batchEquity }
        else
          { m with
            ties := Function.update m.ties p (fl (m.ties p + fl (b.winsByMask i / winnerCount : Nat))),
            batchEquity := if p = 0 then fl (m.batchEquity + fl (b.winsByMask i / winnerCount : Nat)) else m.batchEquity }
      (m, actual ||| (1 <<< p))
    else (m, actual)) (m, 0)

/-- src/equity_calculator/simulator.rs:1125-1147: the loop over the masks -/
def mergeMasksR (n : Nat) (b : Batch) (m : Merge) : Merge :=
  (List.range (1 <<< n)).foldl (fun m i =>
    let m := { m with batchHands := wrap (m.batchHands + b.winsByMask i) }
    let x := mergePlayersR n b i m
    { x.1 with
      winsByMask := Function.update x.1.winsByMask x.2 (wrap (x.1.winsByMask x.2 + b.winsByMask i)) }) m

/-- src/equity_calculator/simulator.rs:1117-1150: the effect of `update_results` on the results in exact mode (the lines 1151-1158 are
for the approximate mode) -/
def updateResultsR (n : Nat) (b : Batch) (hb : HandStats) (r : Results) : Results :=
  let hand := fun k => if k < NUM_HANDS * n then (r.handResults k).addAssignR (hb k) else r.handResults k
  let m := mergeMasksR n b ⟨r.wins, r.ties, r.winsByMask, 0, 0⟩
  { r with
    handResults := hand, wins := m.wins, ties := m.ties, winsByMask := m.winsByMask,
    evalCount := wrap (r.evalCount + b.evalCount) }

namespace Sim

/-- src/equity_calculator/simulator.rs:968-974 `get_preflop_combo_count` -/
def preflopComboCountR (s : Sim) : Nat := s.combinedRanges.foldl (fun count c => wrap (count * c.size)) 1

/-- src/equity_calculator/simulator.rs:735-738: the weight of a deal -/
def dealWeightR (n : Nat) (ph : Nat → Hole) : Nat := (List.range n).foldl (fun w i => wrap (w * (ph i).2.2)) 1

/-- src/equity_calculator/simulator.rs:764-826 `enumerate_board` -/
def enumerateBoardR (s : Sim) (ph : Nat → Hole) (weight : Nat) (used : Nat) (st : Batch × HandStats) : Batch × HandStats :=
  let hands := fun i => Hand.fromHoleCards (ph i).1 (ph i).2.1
  let lookup := fun i => NUM_HANDS * st.1.playerIds i + getCardIndex (ph i).1 (ph i).2.1
  (boardEventsR s.nPlayers ph weight s.fixedBoard used).foldl
    (fun st e => evaluateHandsR s.nPlayers hands e.weight e.board lookup e.flush st) st

/-- src/equity_calculator/simulator.rs:712-748: process one position -/
def processPosR (s : Sim) (dividers : List DividerU64) (pos : Nat) (st : Batch × HandStats) : Option (Batch × HandStats) :=
  match s.decode dividers pos with
  | none => none
  | some none => some st
  | some (some (used, ph)) => some (s.enumerateBoardR ph (dealWeightR s.nPlayers ph) used st)

end Sim

/-! ## The threads -/

/-- src/equity_calculator/simulator.rs:1117-1171 `update_results` in exact mode, under the write lock on the results -/
def Shared.updateR (s : Sim) (total : Nat) (l : Local) (g : Shared) : Shared :=
  { g with
    results := updateResultsR s.nPlayers l.stats l.hands g.results,
    sent := g.sent ++ [progressExactF g.enumPos total] }

/-- One step of a thread. (src/equity_calculator/simulator.rs:687-762, 959-966, 1117-1171) -/
def threadStepR (s : Sim) (dividers : List DividerU64) (total size : Nat) (l : Local) (g : Shared) : Local × Shared :=
  match l.pc with
  | .reserve =>
    -- src/equity_calculator/simulator.rs:959-966 `reserve_batch`
    let start := g.enumPos
    let stop := min total (wrap (start + size))
    ({ l with pos := start, stop := stop, pc := if start ≥ stop then .final else .work }, { g with enumPos := stop })
  | .work =>
    match s.processPosR dividers l.pos (l.stats, l.hands) with
    | none => ({ l with pc := .panicked }, g)
    | some st =>
      let l := { l with stats := st.1, hands := st.2 }
      if l.stats.evalCount ≥ 10000 then ({ l with pc := .flush }, g) else (l.advance, g)
  | .flush =>
    ({ l with pc := .check, stats := Batch.init s.nPlayers, hands := HandStats.init }, g.updateR s total l)
  | .check => if g.stopped then ({ l with pc := .final }, g) else (l.advance, g)
  | .final => ({ l with pc := .done }, g.updateR s total l)
  | .done => (l, g)
  | .panicked => (l, g)

/-- One step of the system: thread `t` makes a step, or the owner of the cancel token sets it.
(src/equity_calculator/simulator.rs:687-762, 959-966, 1117-1171) -/
inductive StepR (s : Sim) (dividers : List DividerU64) (total size nThreads : Nat) : World → World → Prop
  | thread (w : World) (t : Nat) (ht : t < nThreads) (hpc : (w.locals t).pc ≠ .done ∧ (w.locals t).pc ≠ .panicked) :
      StepR s dividers total size nThreads w
        { locals := Function.update w.locals t (threadStepR s dividers total size (w.locals t) w.shared).1,
          shared := (threadStepR s dividers total size (w.locals t) w.shared).2 }
  | cancel (w : World) :
      StepR s dividers total size nThreads w { w with shared := { w.shared with stopped := true } }

/-- Any number of steps. (src/equity_calculator/simulator.rs:119-132) -/
inductive StepsR (s : Sim) (dividers : List DividerU64) (total size nThreads : Nat) (w : World) : World → Prop
  | refl : StepsR s dividers total size nThreads w w
  | step {u v : World} : StepsR s dividers total size nThreads w u → StepR s dividers total size nThreads u v →
      StepsR s dividers total size nThreads w v

/-- src/equity_calculator/simulator.rs:69-143 `exact_equity` in a release build.  (The sums after the threads have finished are computed
with 128 bits and do not overflow, theorem `C68_finish`.) -/
def ExactEquityR (ranges : List (List Combo)) (boardMask deadMask nThreads : Nat) (cancelled stopped : Bool)
    (res : Except SimulatorError Results) (sent : List Nat) : Prop :=
  match prepareExact ranges boardMask deadMask with
  | .error e => res = .error e ∧ sent = []
  | .ok s => ∃ r0 flag dividers size w,
      startResults s = some (r0, flag) ∧ s.fastDividers = some dividers ∧ s.reserveSize = some size ∧
      StepsR s dividers s.preflopComboCountR size nThreads (World.init s r0 cancelled) w ∧
      (∀ t < nThreads, (w.locals t).pc = .done) ∧
      res = .ok (finishResultsF s flag w.shared.results) ∧ sent = w.shared.sent ∧ stopped = w.shared.stopped

end Pokers
