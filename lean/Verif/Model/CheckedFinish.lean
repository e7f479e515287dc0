import Verif.Model.Checked
import Verif.Model.CheckedMc
/-!
The parts of `exact_equity` and `approx_equity` before and after the threads with the checks of a debug build, and the whole
functions with all checks.  `none` is a panic (or, for `get_card_index`, an unchecked read out of bounds).

The definitions follow those of `Model/Simulator.lean` and `Model/Results.lean` line by line; only the checks are new.
-/
namespace Pokers

/-- src/hand_evaluator/hand.rs:13-21 `get_card_index` -/
def getCardIndexC (card1 card2 : Nat) : Option Nat := do
  let c1 := if card1 > card2 then card2 else card1
  let c2 := if card1 > card2 then card1 else card2
  let x ← subC 101 c1
  let y ← fits 64 (c1 * x)
  let z ← fits 64 (y / 2 + c2)
  let index ← subC z 1
  if index < CARD_MAP.len then some (Hand.i16AsUsize (CARD_MAP.get index)) else none

/-- `Hand::from_hole_cards` (src/hand_evaluator/hand.rs:165-168): the table `CARDS` has 52 entries. -/
def fromHoleCardsC (c1 c2 : Nat) : Option Hand := do
  let a ← cardC c1
  let b ← cardC c2
  some (a + b)

/-- `hand_results[NUM_HANDS*i+get_card_index(hand.0, hand.1)]` for a vector of length `len`
(src/equity_calculator/simulator.rs:331-395) -/
def cellC (len i : Nat) (hand : Combo) : Option Nat := do
  let x ← getCardIndexC hand.c1 hand.c2
  let k ← fits 64 (NUM_HANDS * i + x)
  if k < len then some k else none

/-- src/equity_calculator/simulator.rs:1198-1226 `save_hand_weights` -/
def saveHandWeightsC (len : Nat) (handRanges : List (List Combo)) (hr : Nat → UnitResults) : Option ((Nat → UnitResults) × Nat) :=
  handRanges.zipIdx.foldlM (fun (x : (Nat → UnitResults) × Nat) (p : List Combo × Nat) => do
    let bit ← shlC 16 1 p.2
    let flag := x.2 ||| bit
    let y ← p.1.foldlM (fun (y : (Nat → UnitResults) × Bool × Nat) (hand : Combo) => do
      let k ← cellC len p.2 hand
      let u : UnitResults := { y.1 k with weight := hand.w, valid := true }
      let hr := Function.update y.1 k u
      if y.2.1 && u.valid && u.weight != 100 then do
        let bit ← shlC 16 1 p.2
        some (hr, false, y.2.2 ^^^ bit)
      else some (hr, y.2.1, y.2.2)) (x.1, true, flag)
    if y.2.1 then do
      let hr ← p.1.foldlM (fun (hr : Nat → UnitResults) (hand : Combo) => do
        let k ← cellC len p.2 hand
        some (if (hr k).valid then Function.update hr k { hr k with weight := 1 } else hr)) y.1
      some (hr, y.2.2)
    else some (y.1, y.2.2)) (hr, 0)

/-- src/equity_calculator/simulator.rs:1228-1242 `fix_hand_weights` -/
def fixHandWeightsC (len : Nat) (handRanges : List (List Combo)) (flag : Nat) (hr : Nat → UnitResults) : Option (Nat → UnitResults) :=
  handRanges.zipIdx.foldlM (fun hr (p : List Combo × Nat) => do
    let bit ← shlC 16 1 p.2
    if flag &&& bit ≠ 0 then p.1.foldlM (fun (hr : Nat → UnitResults) (hand : Combo) => do
        let k ← cellC len p.2 hand
        some (if (hr k).valid then Function.update hr k { hr k with weight := 100 } else hr)) hr
    else some hr) hr

/-- src/equity_calculator/simulator.rs:1179-1193: the category and the draw flags of one hand -/
def rankHandC (board : Hand) (hand : Combo) (u : UnitResults) : Option UnitResults := do
  let holding ← fromHoleCardsC hand.c1 hand.c2
  let category := categoryOfScore (board + holding).evaluate
  let draw ← if countOnes board.mask < 5 then getDraw holding board category else some 0
  some { u with rank := category, draw := draw }

/-- src/equity_calculator/simulator.rs:1173-1196 `set_ranks` -/
def setRanksC (len : Nat) (handRanges : List (List Combo)) (boardMask : Nat) (hr : Nat → UnitResults) : Option (Nat → UnitResults) :=
  let board := Hand.fromBitMask boardMask
  handRanges.zipIdx.foldlM (fun hr (p : List Combo × Nat) => p.1.foldlM (fun (hr : Nat → UnitResults) (hand : Combo) => do
    let k ← cellC len p.2 hand
    let u ← rankHandC board hand (hr k)
    some (Function.update hr k u)) hr) hr

/-- src/equity_calculator/simulator.rs:101-115: the results and the weight flag when the threads start; `hand_results` has
`NUM_HANDS * n_players` elements (line 299) -/
def startResultsC (s : Sim) : Option (Results × Nat) := do
  let r := Results.init s.nPlayers
  let x ← saveHandWeightsC (NUM_HANDS * s.nPlayers) s.handRanges r.handResults
  let hr ← if countOnes s.boardMask > 2 then setRanksC (NUM_HANDS * s.nPlayers) s.handRanges s.boardMask x.1 else some x.1
  some ({ r with handResults := hr }, x.2)

/-- src/equity_calculator/simulator.rs:350-363: one hand in the loop over the hands of a combo -/
def finalHandC (hand : UnitResults) (a : Agg) : Option (UnitResults × Agg) :=
  if hand.valid then
    if hand.total > 0 then do
      let counter ← fits 31 (a.counter + 1)
      let weight ← fits 32 (a.weight + hand.weight)
      let wins ← fits 128 (a.wins + hand.wins)
      let ties ← fits 128 (a.ties + hand.ties)
      let total ← fits 128 (a.total + hand.total)
      some ({ hand with
          winrate := fdiv (hand.wins : ℚ) (hand.total : ℚ), tierate := fdiv (hand.ties : ℚ) (hand.total : ℚ) },
        { counter := counter, weight := weight, wins := wins, ties := ties,
          correctedTies := a.correctedTies + hand.correctedTies, total := total })
    else some ({ hand with equity := some 0 }, a)
  else some (hand, a)

/-- src/equity_calculator/simulator.rs:365-391: the combo result made from the sums.  The divisors `ratio` and `batch_size` are not
zero; the `as u64` casts do not panic. -/
def finalComboC (size : Nat) (a : Agg) : Option UnitResults :=
  if a.counter > 0 then do
    let ratio ← if a.total > U64_MAX then fits 128 (a.total / U64_MAX + 1) else some 1
    let wins ← if a.total > U64_MAX then divC a.wins ratio else some a.wins
    let ties ← if a.total > U64_MAX then divC a.ties ratio else some a.ties
    let total ← if a.total > U64_MAX then divC a.total ratio else some a.total
    let correctedTies := if a.total > U64_MAX then a.correctedTies / (ratio : ℚ) else a.correctedTies
    let weight ← divC a.weight size
    some { wins := wins % 2 ^ 64, ties := ties % 2 ^ 64, total := total % 2 ^ 64, correctedTies := correctedTies,
           equity := fdiv ((wins : ℚ) + correctedTies) (total : ℚ), winrate := fdiv (wins : ℚ) (total : ℚ),
           tierate := fdiv (ties : ℚ) (total : ℚ), weight := weight, rank := 255, draw := 0, valid := true }
  else some UnitResults.default

/-- src/equity_calculator/simulator.rs:347-364: the loop over the `size` hands from `start` -/
def finalHandsC (len start size : Nat) (hr : Nat → UnitResults) : Option ((Nat → UnitResults) × Agg) :=
  (List.range size).foldlM (fun (x : (Nat → UnitResults) × Agg) k => do
    let i ← if start + k < len then some (start + k) else none
    let y ← finalHandC (x.1 i) x.2
    some (Function.update x.1 i y.1, y.2)) (hr, {})

/-- src/equity_calculator/simulator.rs:334-393: the loop over the combos of player `i` -/
def finalPlayerC (len i : Nat) : Nat → Nat → (Nat → UnitResults) → List UnitResults → Option ((Nat → UnitResults) × List UnitResults)
  | 0, _, hr, cs => some (hr, cs)
  | fuel + 1, j, hr, cs =>
    if j < NUM_HANDS then do
      let x ← finalHandsC len (i * NUM_HANDS + j) (batchSize j) hr
      let c ← finalComboC (batchSize j) x.2
      finalPlayerC len i fuel (j + batchSize j) x.1 (cs ++ [c])
    else some (hr, cs)

/-- src/equity_calculator/simulator.rs:331-396 `generate_final_data` -/
def generateFinalDataC (n : Nat) (r : Results) : Option Results := do
  let x ← (List.range n).foldlM (fun (x : (Nat → UnitResults) × List UnitResults) i =>
    finalPlayerC (NUM_HANDS * n) i NUM_HANDS 0 x.1 x.2) (r.handResults, r.comboResults)
  some { r with handResults := x.1, comboResults := x.2 }

/-- src/equity_calculator/simulator.rs:407-411 (also 418-422 and 442-446): add a hand to the element `k` of a table of length `len` -/
def addHandC (len : Nat) (t : Nat → BigUnitResults) (k : Nat) (h : UnitResults) : Option (Nat → BigUnitResults) :=
  if k < len then do
    let wins ← fits 128 ((t k).wins + h.wins)
    let ties ← fits 128 ((t k).ties + h.ties)
    let total ← fits 128 ((t k).total + h.total)
    let weight ← fits 32 ((t k).weight + h.weight)
    some (Function.update t k { wins := wins, ties := ties, total := total, correctedTies := (t k).correctedTies + h.correctedTies,
                                weight := weight })
  else none

/-- src/equity_calculator/simulator.rs:403-449: add one hand of player `i` to the two tables of sums -/
def boardHandC (n i : Nat) (hand : UnitResults) (t : (Nat → BigUnitResults) × (Nat → BigUnitResults)) :
    Option ((Nat → BigUnitResults) × (Nat → BigUnitResults)) :=
  if hand.valid then do
    let ranks ← addHandC (9 * n) t.1 (i * 9 + hand.rank) hand
    let draws ← (List.range 7).foldlM (fun d k => do
      let bit ← shlC 8 1 k
      if hand.draw &&& bit ≠ 0 then addHandC (10 * n) d (i * 10 + k) hand else some d) t.2
    let draws ← match nutIndex hand.draw with
      | some k => addHandC (10 * n) draws (i * 10 + k) hand
      | none => some draws
    some (ranks, draws)
  else some t

/-- src/equity_calculator/simulator.rs:399-451: the tables of sums; `hand_results` has `NUM_HANDS * n` elements -/
def boardTablesC (n : Nat) (hr : Nat → UnitResults) : Option ((Nat → BigUnitResults) × (Nat → BigUnitResults)) :=
  (List.range n).foldlM (fun t i => (List.range NUM_HANDS).foldlM (fun t j => do
    let k ← if i * NUM_HANDS + j < NUM_HANDS * n then some (i * NUM_HANDS + j) else none
    boardHandC n i (hr k) t) t) (fun _ => {}, fun _ => {})

/-- src/equity_calculator/simulator.rs:397-488 `generate_board_data`.  The publication of the entries (452-487) has no index; `ratio` is
at least one. -/
def generateBoardDataC (n : Nat) (r : Results) : Option Results := do
  let t ← boardTablesC n r.handResults
  some { r with
    boardResults := fun k => if k < 9 * n then boardUnit (t.1 k) (r.boardResults k) else r.boardResults k,
    boardDraws := fun k => if k < 10 * n then boardUnit (t.2 k) (r.boardDraws k) else r.boardDraws k }

/-- src/equity_calculator/simulator.rs:133-142: what happens to the results when all threads have finished -/
def finishResultsC (s : Sim) (flag : Nat) (r : Results) : Option Results := do
  let hr ← fixHandWeightsC (NUM_HANDS * s.nPlayers) s.handRanges flag r.handResults
  let r := getEquity s.nPlayers { r with handResults := hr }
  let r ← generateFinalDataC s.nPlayers r
  if countOnes s.boardMask > 2 then generateBoardDataC s.nPlayers r else some r

/-- src/equity_calculator/simulator.rs:69-143 `exact_equity` with all checks -/
def ExactEquityD (ranges : List (List Combo)) (boardMask deadMask nThreads : Nat) (cancelled stopped : Bool)
    (res : Except SimulatorError Results) (sent : List Nat) : Prop :=
  match prepareExact ranges boardMask deadMask with
  | .error e => res = .error e ∧ sent = []
  | .ok s => ∃ r0 flag dividers total size w r,
      startResultsC s = some (r0, flag) ∧ s.fastDividers = some dividers ∧ s.preflopComboCount = some total ∧
      s.reserveSize = some size ∧
      StepsC s dividers total size nThreads (World.init s r0 cancelled) w ∧
      (∀ t < nThreads, (w.locals t).pc = .done) ∧
      finishResultsC s flag w.shared.results = some r ∧ res = .ok r ∧ sent = w.shared.sent ∧ stopped = w.shared.stopped

/-- src/equity_calculator/simulator.rs:175-256 `approx_equity` with all checks -/
def ApproxEquityD (sqrt : ℚ → ℚ) (ranges : List (List Combo)) (boardMask deadMask nThreads : Nat) (target : ℚ)
    (cancelled : Bool) (res : Except SimulatorError Results) (sent : List Nat) : Prop :=
  ∃ p, PrepareApprox ranges boardMask deadMask p ∧
    match p with
    | .error e => res = .error e ∧ sent = []
    | .ok s => ∃ r0 flag w r,
        startResultsC s = some (r0, flag) ∧
        McStepsC sqrt target s nThreads (McWorld.init s r0 cancelled) w ∧
        (∀ t < nThreads, (w.locals t).pc = .done) ∧
        finishResultsC s flag w.shared.results = some r ∧ res = .ok r ∧ sent = w.shared.sent

end Pokers
