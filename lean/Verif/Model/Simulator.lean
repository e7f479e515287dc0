import Verif.Model.Board
import Verif.Model.Results
import Verif.Model.FastDivide
import Verif.Model.HandRange
/-!
Model of the exact calculation of `src/equity_calculator/simulator.rs`: input validation, enumeration of the deals and the
threads that share the work.

`none` is a panic of a debug build.  The threads are a transition system; the schedule is arbitrary.
-/
namespace Pokers

/-- src/equity_calculator/simulator.rs:25 `MIN_PLAYERS` -/
def MIN_PLAYERS : Nat := 2

/-- src/equity_calculator/simulator.rs:32-38 `SimulatorError` -/
inductive SimulatorError
  | TooManyPlayers
  | TooFewPlayers
  | TooManyBoardCards
  | TooManyDeadCards
  | ConflictingRanges
deriving DecidableEq, Repr

/-- src/equity_calculator/simulator.rs:636-658 `struct Simulator`, the fields that do not change during a run -/
structure Sim where
  handRanges : List (List Combo)
  combinedRanges : List CombinedRange
  boardMask : Nat
  deadMask : Nat
  fixedBoard : Hand
  nPlayers : Nat
  calcExact : Bool

/-- src/equity_calculator/simulator.rs:661-685 `Simulator::new` -/
def Sim.new (handRanges : List (List Combo)) (combinedRanges : List CombinedRange) (boardMask deadMask : Nat)
    (calcExact : Bool) : Sim :=
  { handRanges := handRanges, combinedRanges := combinedRanges, boardMask := boardMask, deadMask := deadMask,
    fixedBoard := Hand.fromBitMask boardMask, nPlayers := handRanges.length, calcExact := calcExact }

/-- src/equity_calculator/simulator.rs:77-88 (and 184-195): the validation of the arguments -/
def validate (nRanges boardMask deadMask : Nat) : Option SimulatorError :=
  if nRanges < MIN_PLAYERS then some .TooFewPlayers
  else if nRanges > MAX_PLAYERS then some .TooManyPlayers
  else if countOnes boardMask > BOARD_CARDS then some .TooManyBoardCards
  else if 2 * nRanges + countOnes deadMask + BOARD_CARDS > CARD_COUNT then some .TooManyDeadCards
  else none

/-- src/equity_calculator/simulator.rs:77-109: `exact_equity` up to the creation of the simulator -/
def prepareExact (ranges : List (List Combo)) (boardMask deadMask : Nat) : Except SimulatorError Sim :=
  match validate ranges.length boardMask deadMask with
  | some e => .error e
  | none =>
    let handRanges := ranges.map fun h => removeConflictingCombos h boardMask deadMask
    let crs := CombinedRange.fromRanges handRanges
    if crs.any fun cr => cr.size == 0 then .error .ConflictingRanges
    else .ok (Sim.new handRanges crs boardMask deadMask true)

namespace Sim

/-- src/equity_calculator/simulator.rs:968-974 `get_preflop_combo_count` -/
def preflopComboCount (s : Sim) : Option Nat :=
  s.combinedRanges.foldlM (fun count c => fits 64 (count * c.size)) 1

/-- src/equity_calculator/simulator.rs:976-990 `get_postflop_combo_count` -/
def postflopComboCount (s : Sim) : Option Nat := do
  let d ← subC CARD_COUNT s.fixedBoard.count
  let d ← subC d (countOnes s.deadMask)
  let d ← subC d (2 * s.nPlayers)
  let r ← subC 5 s.fixedBoard.count
  let p ← (List.range r).foldlM (fun p i => do
    let x ← subC d i
    fits 64 (p * x)) 1
  (List.range r).foldlM (fun p i => divC p (i + 1)) p

/-- src/equity_calculator/simulator.rs:703 `batch_size` -/
def reserveSize (s : Sim) : Option Nat := do
  let p ← s.postflopComboCount
  let q ← divC 2000000 p
  pure (max q 1)

/-- src/equity_calculator/simulator.rs:727-731: write the hole cards of a combo to the players of its combined range -/
def writeHands (cr : CombinedRange) (combo : JointCombo) (ph : Nat → Hole) : Nat → Hole :=
  (List.range cr.playerCount).foldl (fun ph j => Function.update ph (cr.players j) (combo.holeCards j)) ph

/-- src/equity_calculator/simulator.rs:717-732: the loop that decodes a position; the inner `none` is `ok == false` -/
def decodeLoop : List (CombinedRange × DividerU64) → Nat → Nat → (Nat → Hole) → Option (Option (Nat × (Nat → Hole)))
  | [], _, used, ph => some (some (used, ph))
  | (cr, divider) :: rest, pos, used, ph => do
    let quotient ← divider.divide pos
    let product ← fits 64 (quotient * cr.size)
    let remainder ← subC pos product
    let combo ← cr.combos[remainder]?
    if used &&& combo.mask ≠ 0 then some none
    else decodeLoop rest quotient (used ||| combo.mask) (writeHands cr combo ph)

/-- src/equity_calculator/simulator.rs:692-696 `fast_dividers` -/
def fastDividers (s : Sim) : Option (List DividerU64) :=
  s.combinedRanges.mapM fun c => DividerU64.divideBy c.size

/-- src/equity_calculator/simulator.rs:712-732: decode a position -/
def decode (s : Sim) (dividers : List DividerU64) (pos : Nat) : Option (Option (Nat × (Nat → Hole))) :=
  decodeLoop (s.combinedRanges.zip dividers) pos (s.boardMask ||| s.deadMask) (fun _ => (52, 52, 100))

/-- src/equity_calculator/simulator.rs:735-738: the weight of a deal -/
def dealWeight (n : Nat) (ph : Nat → Hole) : Nat := (List.range n).foldl (fun w i => w * (ph i).2.2) 1

/-- src/equity_calculator/simulator.rs:764-826 `enumerate_board` -/
def enumerateBoard (s : Sim) (ph : Nat → Hole) (weight : Nat) (used : Nat) (st : Batch × HandStats) : Batch × HandStats :=
  let hands := fun i => Hand.fromHoleCards (ph i).1 (ph i).2.1
  let lookup := fun i => NUM_HANDS * st.1.playerIds i + getCardIndex (ph i).1 (ph i).2.1
  (boardEvents s.nPlayers ph weight s.fixedBoard used).foldl
    (fun st e => evaluateHands s.nPlayers hands e.weight e.board lookup e.flush st) st

/-- src/equity_calculator/simulator.rs:712-748: process one position; `none` is a panic -/
def processPos (s : Sim) (dividers : List DividerU64) (pos : Nat) (st : Batch × HandStats) : Option (Batch × HandStats) :=
  match s.decode dividers pos with
  | none => none
  | some none => some st
  | some (some (used, ph)) => some (s.enumerateBoard ph (dealWeight s.nPlayers ph) used st)

end Sim

/-- Where a thread is in `enumerate_all` (src/equity_calculator/simulator.rs:687-762): before `reserve_batch` (line 703),
before line 712, before `update_results` at line 751, before the test of `stopped` at line 754, before the last
`update_results` at line 761, finished, or panicked. -/
inductive Pc
  | reserve
  | work
  | flush
  | check
  | final
  | done
  | panicked
deriving DecidableEq, Repr

/-- The local variables of a thread. (src/equity_calculator/simulator.rs:688-691) -/
structure Local where
  pc : Pc
  pos : Nat
  stop : Nat
  stats : Batch
  hands : HandStats

/-- The shared state: the position counter, the results, the cancel token and the progress values sent so far.
(src/equity_calculator/simulator.rs:636-658) -/
structure Shared where
  enumPos : Nat
  results : Results
  stopped : Bool
  sent : List Nat

/-- src/equity_calculator/simulator.rs:688-691: a thread at the start -/
def Local.init (n : Nat) : Local :=
  { pc := .reserve, pos := 0, stop := 0, stats := Batch.init n, hands := HandStats.init }

/-- src/equity_calculator/simulator.rs:758 and 702: the end of an iteration -/
def Local.advance (l : Local) : Local :=
  { l with pos := l.pos + 1, pc := if l.pos + 1 ≥ l.stop then .reserve else .work }

/-- src/equity_calculator/simulator.rs:1117-1171 `update_results` in exact mode, under the write lock on the results -/
def Shared.update (s : Sim) (total : Nat) (l : Local) (g : Shared) : Shared :=
  { g with
    results := updateResults id s.nPlayers s.calcExact l.stats l.hands g.results,
    sent := g.sent ++ [progressExact g.enumPos total] }

/-- One step of a thread. (src/equity_calculator/simulator.rs:687-762, 959-966, 1117-1171) -/
def threadStep (s : Sim) (dividers : List DividerU64) (total size : Nat) (l : Local) (g : Shared) : Local × Shared :=
  match l.pc with
  | .reserve =>
    -- src/equity_calculator/simulator.rs:959-966 `reserve_batch`
    let start := g.enumPos
    match fits 64 (start + size) with
    | none => ({ l with pc := .panicked }, g)
    | some e =>
      let stop := min total e
      ({ l with pos := start, stop := stop, pc := if start ≥ stop then .final else .work }, { g with enumPos := stop })
  | .work =>
    match s.processPos dividers l.pos (l.stats, l.hands) with
    | none => ({ l with pc := .panicked }, g)
    | some st =>
      let l := { l with stats := st.1, hands := st.2 }
      if l.stats.evalCount ≥ 10000 then ({ l with pc := .flush }, g) else (l.advance, g)
  | .flush =>
    ({ l with pc := .check, stats := Batch.init s.nPlayers, hands := HandStats.init }, g.update s total l)
  | .check => if g.stopped then ({ l with pc := .final }, g) else (l.advance, g)
  | .final => ({ l with pc := .done }, g.update s total l)
  | .done => (l, g)
  | .panicked => (l, g)

/-- All threads and the shared state. (src/equity_calculator/simulator.rs:119-127) -/
structure World where
  locals : Nat → Local
  shared : Shared

/-- One step of the system: thread `t` makes a step, or the owner of the cancel token sets it.
(src/equity_calculator/simulator.rs:687-762, 959-966, 1117-1171) -/
inductive Step (s : Sim) (dividers : List DividerU64) (total size nThreads : Nat) : World → World → Prop
  | thread (w : World) (t : Nat) (ht : t < nThreads) (hpc : (w.locals t).pc ≠ .done ∧ (w.locals t).pc ≠ .panicked) :
      Step s dividers total size nThreads w
        { locals := Function.update w.locals t (threadStep s dividers total size (w.locals t) w.shared).1,
          shared := (threadStep s dividers total size (w.locals t) w.shared).2 }
  | cancel (w : World) :
      Step s dividers total size nThreads w { w with shared := { w.shared with stopped := true } }

/-- src/equity_calculator/simulator.rs:1198-1226 `save_hand_weights`: the loop over the players; returns the results and
`flag` -/
def saveHandWeights (handRanges : List (List Combo)) (hr : Nat → UnitResults) : (Nat → UnitResults) × Nat :=
  handRanges.zipIdx.foldl (fun (hr, flag) (range, i) =>
    let flag := flag ||| (1 <<< i)
    let x := range.foldl (fun (hr, check, flag) (hand : Combo) =>
      let k := NUM_HANDS * i + getCardIndex hand.c1 hand.c2
      let u : UnitResults := { hr k with weight := hand.w, valid := true }
      let hr := Function.update hr k u
      if check && u.valid && u.weight != 100 then (hr, false, flag ^^^ (1 <<< i)) else (hr, check, flag))
      (hr, true, flag)
    let hr := if x.2.1 then range.foldl (fun hr (hand : Combo) =>
        let k := NUM_HANDS * i + getCardIndex hand.c1 hand.c2
        if (hr k).valid then Function.update hr k { hr k with weight := 1 } else hr) x.1
      else x.1
    (hr, x.2.2)) (hr, 0)

/-- src/equity_calculator/simulator.rs:1228-1242 `fix_hand_weights` -/
def fixHandWeights (handRanges : List (List Combo)) (flag : Nat) (hr : Nat → UnitResults) : Nat → UnitResults :=
  handRanges.zipIdx.foldl (fun hr (range, i) =>
    if flag &&& (1 <<< i) ≠ 0 then range.foldl (fun hr (hand : Combo) =>
        let k := NUM_HANDS * i + getCardIndex hand.c1 hand.c2
        if (hr k).valid then Function.update hr k { hr k with weight := 100 } else hr) hr
    else hr) hr

/-- src/equity_calculator/simulator.rs:1182-1185: the category `0 … 8` of a score -/
def categoryOfScore (score : Nat) : Nat :=
  let category := (score / HAND_CATEGORY_OFFSET) % 2 ^ 8
  if category > 0 then category - 1 else category

/-- src/equity_calculator/simulator.rs:1179-1193: the category and the draw flags of one hand; `none` is a panic in `get_draw` -/
def rankHand (board : Hand) (hand : Combo) (u : UnitResults) : Option UnitResults :=
  let holding := Hand.fromHoleCards hand.c1 hand.c2
  let category := categoryOfScore (board + holding).evaluate
  (if countOnes board.mask < 5 then getDraw holding board category else some 0).map fun draw =>
    { u with rank := category, draw := draw }

/-- src/equity_calculator/simulator.rs:1173-1196 `set_ranks`; `none` is a panic in `get_draw` -/
def setRanks (handRanges : List (List Combo)) (boardMask : Nat) (hr : Nat → UnitResults) : Option (Nat → UnitResults) :=
  let board := Hand.fromBitMask boardMask
  handRanges.zipIdx.foldlM (fun hr (range, i) => range.foldlM (fun hr (hand : Combo) =>
    let k := NUM_HANDS * i + getCardIndex hand.c1 hand.c2
    (rankHand board hand (hr k)).map (Function.update hr k)) hr) hr

/-- src/equity_calculator/simulator.rs:101-115: the results and the weight flag when the threads start -/
def startResults (s : Sim) : Option (Results × Nat) :=
  let r := Results.init s.nPlayers
  let x := saveHandWeights s.handRanges r.handResults
  (if countOnes s.boardMask > 2 then setRanks s.handRanges s.boardMask x.1 else some x.1).map fun hr =>
    ({ r with handResults := hr }, x.2)

/-- src/equity_calculator/simulator.rs:133-142: what happens to the results when all threads have finished -/
def finishResults (s : Sim) (flag : Nat) (r : Results) : Results :=
  let r := { r with handResults := fixHandWeights s.handRanges flag r.handResults }
  let r := getEquity s.nPlayers r
  let r := generateFinalData s.nPlayers r
  if countOnes s.boardMask > 2 then generateBoardData s.nPlayers r else r

/-- The state when the threads are spawned. (src/equity_calculator/simulator.rs:119-127) -/
def World.init (s : Sim) (r : Results) (cancelled : Bool) : World :=
  { locals := fun _ => Local.init s.nPlayers,
    shared := { enumPos := 0, results := r, stopped := cancelled, sent := [] } }

/-- Any number of steps. (src/equity_calculator/simulator.rs:119-132) -/
inductive Steps (s : Sim) (dividers : List DividerU64) (total size nThreads : Nat) (w : World) : World → Prop
  | refl : Steps s dividers total size nThreads w w
  | step {u v : World} : Steps s dividers total size nThreads w u → Step s dividers total size nThreads u v →
      Steps s dividers total size nThreads w v

/-- src/equity_calculator/simulator.rs:69-143 `exact_equity`: `res` is a possible return value; `sent` are the progress values
passed to the callback, `cancelled` is the value of the cancel token when the threads start and `stopped` when they have
finished. -/
def ExactEquity (ranges : List (List Combo)) (boardMask deadMask nThreads : Nat) (cancelled stopped : Bool)
    (res : Except SimulatorError Results) (sent : List Nat) : Prop :=
  match prepareExact ranges boardMask deadMask with
  | .error e => res = .error e ∧ sent = []
  | .ok s => ∃ r0 flag dividers total size w,
      startResults s = some (r0, flag) ∧ s.fastDividers = some dividers ∧ s.preflopComboCount = some total ∧
      s.reserveSize = some size ∧
      Steps s dividers total size nThreads (World.init s r0 cancelled) w ∧
      (∀ t < nThreads, (w.locals t).pc = .done) ∧
      res = .ok (finishResults s flag w.shared.results) ∧ sent = w.shared.sent ∧ stopped = w.shared.stopped

end Pokers
