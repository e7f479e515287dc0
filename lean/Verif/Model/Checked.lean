import Verif.Model.Simulator
/-!
The exact calculation of `src/equity_calculator/simulator.rs` with the checks of a debug build: overflow of the `u64`
counters, products and sums, of the `u8` suit counters, and the bounds of the arrays and vectors that are indexed.  `none` is a
panic.

The definitions follow those of `Model/Board.lean`, `Model/Results.lean` and `Model/Simulator.lean` line by line; only the
checks are new.  Theorems `C51_*` say when the two agree.
-/
namespace Pokers

/-- `CARDS[usize::from(c)]`: the table has 52 entries. (src/equity_calculator/simulator.rs:851, 879, 915, 938, 1323) -/
def cardC (c : Nat) : Option Hand := if c < CARD_COUNT then some (CARDS c) else none

/-- src/equity_calculator/simulator.rs:848-859: the last card when no flush is possible -/
def lastNoFlushC (board : Hand) (deck : List Nat) (weight : Nat) : Nat → Nat → Option (List Ev)
  | 0, _ => some []
  | fuel + 1, i =>
    if i < deck.length then do
      let c ← deck[i]?
      let card ← cardC c
      let rank := c >>> 2
      let r := sameRankLoop deck rank deck.length 1 (i + 1)
      let w ← fits 64 (weight * r.1)
      let rest ← lastNoFlushC board deck weight fuel r.2
      some (⟨w, board + card, false⟩ :: rest)
    else some []

/-- src/equity_calculator/simulator.rs:861-881: the last card when a flush is possible -/
def lastFlushC (board : Hand) (deck : List Nat) (sc : Nat → Nat) (weight : Nat) : Nat → Nat → Nat → Option (List Ev)
  | 0, _, _ => some []
  | fuel + 1, lastRank, i =>
    if i < deck.length then do
      let c ← deck[i]?
      if sc (c &&& 3) < 4 then
        let rank := c >>> 2
        if rank = lastRank then lastFlushC board deck sc weight fuel lastRank (i + 1)
        else do
          let multiplier := countLoop deck sc rank deck.length 1 (i + 1)
          let card ← cardC c
          let w ← fits 64 (weight * multiplier)
          let rest ← lastFlushC board deck sc weight fuel rank (i + 1)
          some (⟨w, board + card, true⟩ :: rest)
      else do
        let card ← cardC c
        let w ← fits 64 (weight * 1)
        let rest ← lastFlushC board deck sc weight fuel lastRank (i + 1)
        some (⟨w, board + card, true⟩ :: rest)
    else some []

/-- `slice::swap` panics if an index is out of bounds. (src/equity_calculator/simulator.rs:899) -/
def swapC (deck : List Nat) (a b : Nat) : Option (List Nat) :=
  if a < deck.length ∧ b < deck.length then some (swap deck a b) else none

/-- src/equity_calculator/simulator.rs:892-903: move the irrelevant cards of the same rank to the front -/
def gatherLoopC (sc : Nat → Nat) (r rank i : Nat) : Nat → Nat → List Nat → Nat → Option (List Nat × Nat)
  | 0, _, deck, cnt => some (deck, cnt)
  | fuel + 1, j, deck, cnt =>
    if j < deck.length then do
      let c ← deck[j]?
      if c >>> 2 ≠ rank then some (deck, cnt)
      else do
        let x ← fits 8 (sc (c &&& 3) + r)
        if x < 5 then do
          let deck ← if j ≠ i + cnt then swapC deck j (i + cnt) else some deck
          gatherLoopC sc r rank i fuel (j + 1) deck (cnt + 1)
        else gatherLoopC sc r rank i fuel (j + 1) deck cnt
    else some (deck, cnt)

/-- `BINOM_COEFF[irrelevant_count][repeats]` (src/equity_calculator/simulator.rs:914) -/
def binomC (cnt repeats : Nat) : Option Nat := do
  let row ← BINOM_COEFF[cnt]?
  row[repeats]?

/-- A recursive call with checks. (src/equity_calculator/simulator.rs:828-840) -/
abbrev RecCallC := Hand → List Nat → (Nat → Nat) → Nat → Nat → Nat → Option (List Ev × Bufs)

/-- src/equity_calculator/simulator.rs:905-933: the loop over the number `repeats` of irrelevant cards that are used -/
def repeatLoopC (child : RecCallC) (r i cnt weight : Nat) :
    Nat → Nat → Hand → List Nat → (Nat → Nat) → Option (List Ev × Bufs)
  | 0, _, _, deck, sc => some ([], deck, sc)
  | fuel + 1, repeats, newBoard, deck, sc => do
    let coeff ← binomC cnt repeats
    let newWeight ← fits 64 (coeff * weight)
    let c ← deck[i + repeats - 1]?
    let card ← cardC c
    let newBoard := newBoard + card
    if repeats = r then do
      let rest ← repeatLoopC child r i cnt weight fuel (repeats + 1) newBoard deck sc
      some (⟨newWeight, newBoard, true⟩ :: rest.1, rest.2)
    else do
      let r' ← subC r repeats
      let x ← child newBoard deck sc r' (i + cnt) newWeight
      let rest ← repeatLoopC child r i cnt weight fuel (repeats + 1) newBoard x.2.1 x.2.2
      some (x.1 ++ rest.1, rest.2)

/-- src/equity_calculator/simulator.rs:886-956: the main loop -/
def boardLoopC (child : RecCallC) (board : Hand) (r weight : Nat) :
    Nat → Nat → List Nat → (Nat → Nat) → Option (List Ev × Bufs)
  | 0, _, deck, sc => some ([], deck, sc)
  | fuel + 1, i, deck, sc =>
    if i < deck.length then do
      let c ← deck[i]?
      let suit := c &&& 3
      let need ← fits 8 (sc suit + r)
      if need < 5 then do
        let g ← gatherLoopC sc r (c >>> 2) i deck.length (i + 1) deck 1
        let x ← repeatLoopC child r i g.2 weight (min g.2 r) 1 board g.1 sc
        let rest ← boardLoopC child board r weight fuel (i + (g.2 - 1) + 1) x.2.1 x.2.2
        some (x.1 ++ rest.1, rest.2)
      else do
        let card ← cardC c
        let more ← fits 8 (sc suit + 1)
        let r' ← subC r 1
        let x ← child (board + card) deck (Function.update sc suit more) r' (i + 1) weight
        let less ← subC (x.2.2 suit) 1
        let rest ← boardLoopC child board r weight fuel (i + 1) x.2.1 (Function.update x.2.2 suit less)
        some (x.1 ++ rest.1, rest.2)
    else some ([], deck, sc)

/-- src/equity_calculator/simulator.rs:828-957 `enumerate_board_rec` -/
def enumerateBoardRecC : Nat → RecCallC
  | 0, _, deck, sc, _, _, _ => some ([], deck, sc)
  | depth + 1, board, deck, sc, r, start, weight =>
    if r = 1 then
      if sc 0 < 4 ∧ sc 1 < 4 ∧ sc 2 < 4 ∧ sc 3 < 4 then
        (lastNoFlushC board deck weight deck.length start).map (·, deck, sc)
      else (lastFlushC board deck sc weight deck.length 255 start).map (·, deck, sc)
    else boardLoopC (enumerateBoardRecC depth) board r weight deck.length start deck sc

/-- src/equity_calculator/simulator.rs:782-825: the calls of `evaluate_hands` made by `enumerate_board` -/
def boardEventsC (n : Nat) (holes : Nat → Hole) (weight : Nat) (board : Hand) (usedMask : Nat) : Option (List Ev) := do
  let r ← subC BOARD_CARDS board.count
  if r = 0 then some [⟨weight, board, true⟩]
  else (enumerateBoardRecC r board (makeDeck usedMask) (suitCounts n holes board) r 0 weight).map (·.1)

namespace UnitResults

/-- src/equity_calculator/simulator.rs:564-566 `update_total` -/
def updateTotalC (u : UnitResults) (weight : Nat) : Option UnitResults :=
  (fits 64 (u.total + weight)).map fun total => { u with total := total }

/-- src/equity_calculator/simulator.rs:568-570 `update_wins` -/
def updateWinsC (u : UnitResults) (weight : Nat) : Option UnitResults :=
  (fits 64 (u.wins + weight)).map fun wins => { u with wins := wins }

/-- src/equity_calculator/simulator.rs:572-575 `update_ties` -/
def updateTiesC (u : UnitResults) (weight counter : Nat) : Option UnitResults :=
  (fits 64 (u.ties + weight)).map fun ties =>
    { u with ties := ties, correctedTies := u.correctedTies + (weight : ℚ) / (counter : ℚ) }

/-- src/equity_calculator/simulator.rs:578-586 `AddAssign::add_assign` -/
def addAssignC (u o : UnitResults) : Option UnitResults := do
  let wins ← fits 64 (u.wins + o.wins)
  let ties ← fits 64 (u.ties + o.ties)
  let total ← fits 64 (u.total + o.total)
  let correctedTies := u.correctedTies + o.correctedTies
  some { u with
    wins := wins, ties := ties, total := total, correctedTies := correctedTies,
    equity := fdiv ((wins : ℚ) + correctedTies) (total : ℚ) }

end UnitResults

/-- Assignment to one element of a results vector of length `len`. (src/equity_calculator/simulator.rs:1117-1171) -/
def modifyC (len : Nat) (hs : HandStats) (k : Nat) (f : UnitResults → Option UnitResults) : Option HandStats :=
  if k < len then (f (hs k)).map (Function.update hs k) else none

/-- src/equity_calculator/simulator.rs:1245-1301 `evaluate_hands`; `len` is the length of `hand_results` -/
def evaluateHandsC (n len : Nat) (hands : Nat → Hand) (weight : Nat) (board : Hand) (lookup : Nat → Nat)
    (flush : Bool) (st : Batch × HandStats) : Option (Batch × HandStats) := do
  let s := scan n hands board flush
  let hs ← (List.range n).foldlM (fun hs i => modifyC len hs (lookup i) (·.updateTotalC weight)) st.2
  let hs ← (if s.counter = 1 then modifyC len hs (lookup (s.indexes 0)) (·.updateWinsC weight)
    else (List.range s.counter).foldlM
      (fun hs j => modifyC len hs (lookup (s.indexes j)) (·.updateTiesC weight s.counter)) hs)
  let wins ← fits 64 (st.1.winsByMask s.winnerMask + weight)
  let evals ← fits 64 (st.1.evalCount + 1)
  some ({ st.1 with winsByMask := Function.update st.1.winsByMask s.winnerMask wins, evalCount := evals }, hs)

/-- src/equity_calculator/simulator.rs:1129-1145: the inner loop over the players of the mask `i`.  (`winner_count` is not zero
where it divides: the mask has the bit `j`.) -/
def mergePlayersC (n : Nat) (b : Batch) (i : Nat) (m : Merge) : Option (Merge × Nat) :=
  let winnerCount := countOnes i
  (List.range n).foldlM (fun (x : Merge × Nat) j =>
    if i &&& (1 <<< j) ≠ 0 then do
      let p := b.playerIds j
      let m ←
        if winnerCount = 1 then
          (fits 64 (x.1.wins p + b.winsByMask i)).map fun wins =>
            { x.1 with
              wins := Function.update x.1.wins p wins,
              batchEquity := if p = 0 then x.1.batchEquity + (b.winsByMask i : ℚ) else x.1.batchEquity }
        else
          some { x.1 with
            ties := Function.update x.1.ties p (x.1.ties p + ((b.winsByMask i / winnerCount : Nat) : ℚ)),
            batchEquity :=
              if p = 0 then x.1.batchEquity + ((b.winsByMask i / winnerCount : Nat) : ℚ) else x.1.batchEquity }
      some (m, x.2 ||| (1 <<< p))
    else some x) (m, 0)

/-- src/equity_calculator/simulator.rs:1125-1147: the loop over the masks -/
def mergeMasksC (n : Nat) (b : Batch) (m : Merge) : Option Merge :=
  (List.range (1 <<< n)).foldlM (fun (m : Merge) i => do
    let hands ← fits 64 (m.batchHands + b.winsByMask i)
    let x ← mergePlayersC n b i { m with batchHands := hands }
    let wins ← fits 64 (x.1.winsByMask x.2 + b.winsByMask i)
    some { x.1 with winsByMask := Function.update x.1.winsByMask x.2 wins }) m

/-- src/equity_calculator/simulator.rs:1117-1158: the effect of `update_results` on the results -/
def updateResultsC (sqrt : ℚ → ℚ) (n : Nat) (calcExact : Bool) (b : Batch) (hb : HandStats) (r : Results) : Option Results := do
  let hand ← (List.range (NUM_HANDS * n)).foldlM (fun (hr : Nat → UnitResults) k =>
    ((hr k).addAssignC (hb k)).map (Function.update hr k)) r.handResults
  let m ← mergeMasksC n b ⟨r.wins, r.ties, r.winsByMask, 0, 0⟩
  let batchEquity := m.batchEquity / ((m.batchHands : ℚ) + eps)
  let evals ← fits 64 (r.evalCount + b.evalCount)
  let r := { r with
    handResults := hand, wins := m.wins, ties := m.ties, winsByMask := m.winsByMask, evalCount := evals }
  if calcExact then some r
  else
    let sum := r.batchSum + batchEquity
    let sum2 := r.batchSum2 + batchEquity * batchEquity
    let count := r.batchCount + 1
    some { r with batchSum := sum, batchSum2 := sum2, batchCount := count,
                  stdev := sqrt (eps + sum2 - sum * sum / count) / count }

namespace Sim

/-- src/equity_calculator/simulator.rs:735-738: the weight of a deal -/
def dealWeightC (n : Nat) (ph : Nat → Hole) : Option Nat :=
  (List.range n).foldlM (fun w i => fits 64 (w * (ph i).2.2)) 1

/-- src/equity_calculator/simulator.rs:764-826 `enumerate_board` -/
def enumerateBoardC (s : Sim) (ph : Nat → Hole) (weight : Nat) (used : Nat) (st : Batch × HandStats) :
    Option (Batch × HandStats) := do
  let hands := fun i => Hand.fromHoleCards (ph i).1 (ph i).2.1
  let lookup := fun i => NUM_HANDS * st.1.playerIds i + getCardIndex (ph i).1 (ph i).2.1
  let es ← boardEventsC s.nPlayers ph weight s.fixedBoard used
  es.foldlM (fun st e => evaluateHandsC s.nPlayers (s.nPlayers * NUM_HANDS) hands e.weight e.board lookup e.flush st) st

/-- src/equity_calculator/simulator.rs:712-748: process one position -/
def processPosC (s : Sim) (dividers : List DividerU64) (pos : Nat) (st : Batch × HandStats) : Option (Batch × HandStats) :=
  match s.decode dividers pos with
  | none => none
  | some none => some st
  | some (some (used, ph)) => do
    let weight ← dealWeightC s.nPlayers ph
    s.enumerateBoardC ph weight used st

end Sim

/-- One step of a thread, with the checks. (src/equity_calculator/simulator.rs:687-762, 959-966, 1117-1171) -/
def threadStepC (s : Sim) (dividers : List DividerU64) (total size : Nat) (l : Local) (g : Shared) : Local × Shared :=
  match l.pc with
  | .work =>
    match s.processPosC dividers l.pos (l.stats, l.hands) with
    | none => ({ l with pc := .panicked }, g)
    | some st =>
      let l := { l with stats := st.1, hands := st.2 }
      if l.stats.evalCount ≥ 10000 then ({ l with pc := .flush }, g) else (l.advance, g)
  | .flush =>
    match updateResultsC id s.nPlayers s.calcExact l.stats l.hands g.results with
    | none => ({ l with pc := .panicked }, g)
    | some r => ({ l with pc := .check, stats := Batch.init s.nPlayers, hands := HandStats.init },
        { g with results := r, sent := g.sent ++ [progressExact g.enumPos total] })
  | .final =>
    match updateResultsC id s.nPlayers s.calcExact l.stats l.hands g.results with
    | none => ({ l with pc := .panicked }, g)
    | some r => ({ l with pc := .done }, { g with results := r, sent := g.sent ++ [progressExact g.enumPos total] })
  | _ => threadStep s dividers total size l g

/-- One step of the system with the checks.  (After a panic in `update_results` the lock on the results is poisoned and the other
threads panic as well; here they simply go on.) (src/equity_calculator/simulator.rs:687-762, 959-966, 1117-1171) -/
inductive StepC (s : Sim) (dividers : List DividerU64) (total size nThreads : Nat) : World → World → Prop
  | thread (w : World) (t : Nat) (ht : t < nThreads) (hpc : (w.locals t).pc ≠ .done ∧ (w.locals t).pc ≠ .panicked) :
      StepC s dividers total size nThreads w
        { locals := Function.update w.locals t (threadStepC s dividers total size (w.locals t) w.shared).1,
          shared := (threadStepC s dividers total size (w.locals t) w.shared).2 }
  | cancel (w : World) :
      StepC s dividers total size nThreads w { w with shared := { w.shared with stopped := true } }

/-- Any number of steps with the checks. (src/equity_calculator/simulator.rs:119-132) -/
inductive StepsC (s : Sim) (dividers : List DividerU64) (total size nThreads : Nat) (w : World) : World → Prop
  | refl : StepsC s dividers total size nThreads w w
  | step {u v : World} : StepsC s dividers total size nThreads w u → StepC s dividers total size nThreads u v →
      StepsC s dividers total size nThreads w v

/-- src/equity_calculator/simulator.rs:69-143 `exact_equity` with the checks in the threads (the sums after the threads have finished
are computed with 128 bits) -/
def ExactEquityC (ranges : List (List Combo)) (boardMask deadMask nThreads : Nat) (cancelled stopped : Bool)
    (res : Except SimulatorError Results) (sent : List Nat) : Prop :=
  match prepareExact ranges boardMask deadMask with
  | .error e => res = .error e ∧ sent = []
  | .ok s => ∃ r0 flag dividers total size w,
      startResults s = some (r0, flag) ∧ s.fastDividers = some dividers ∧ s.preflopComboCount = some total ∧
      s.reserveSize = some size ∧
      StepsC s dividers total size nThreads (World.init s r0 cancelled) w ∧
      (∀ t < nThreads, (w.locals t).pc = .done) ∧
      res = .ok (finishResults s flag w.shared.results) ∧ sent = w.shared.sent ∧ stopped = w.shared.stopped

end Pokers
