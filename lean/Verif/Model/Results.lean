import Mathlib.Algebra.Order.Field.Rat
import Mathlib.Logic.Function.Basic
import Mathlib.Data.Rat.Floor
import Verif.Model.StringLookup
import Verif.Model.CombinedRange
/-!
Model of the result structures of `src/equity_calculator/simulator.rs` and of the functions that fill and summarise them.

`f64` values are rational numbers (rounding is not modelled); a quotient with divisor zero (NaN or infinite in Rust) is
`none`.  The `u64`/`u128` counters are natural numbers; theorem `C51_*` says when that is justified.  Vectors indexed by
player, hand or mask are functions.
-/
namespace Pokers

/-- src/equity_calculator/simulator.rs:28 `NUM_HANDS` -/
def NUM_HANDS : Nat := 1326
/-- src/equity_calculator/simulator.rs:29 `NUM_COMBOS` -/
def NUM_COMBOS : Nat := 169
/-- `u64::MAX` (src/equity_calculator/simulator.rs:366-367, 455-456, 473-474) -/
def U64_MAX : Nat := 2 ^ 64 - 1

/-- `f64` division; `none` is a result that is not a number (or infinite). (src/equity_calculator/simulator.rs:304-316) -/
def fdiv (a b : ℚ) : Option ℚ := if b = 0 then none else some (a / b)

/-- src/equity_calculator/simulator.rs:530-542 `struct UnitResults` -/
structure UnitResults where
  wins : Nat
  ties : Nat
  total : Nat
  correctedTies : ℚ
  equity : Option ℚ
  winrate : Option ℚ
  tierate : Option ℚ
  weight : Nat
  rank : Nat
  draw : Nat
  valid : Bool
deriving DecidableEq

namespace UnitResults

/-- src/equity_calculator/simulator.rs:544-560 `UnitResults::default` -/
def default : UnitResults :=
  { wins := 0, ties := 0, total := 0, correctedTies := 0, equity := some 0, winrate := some 0, tierate := some 0,
    weight := 0, rank := 255, draw := 0, valid := false }

/-- src/equity_calculator/simulator.rs:564-566 `update_total` -/
def updateTotal (u : UnitResults) (weight : Nat) : UnitResults := { u with total := u.total + weight }

/-- src/equity_calculator/simulator.rs:568-570 `update_wins` -/
def updateWins (u : UnitResults) (weight : Nat) : UnitResults := { u with wins := u.wins + weight }

/-- src/equity_calculator/simulator.rs:572-575 `update_ties` (`counter` is at least two) -/
def updateTies (u : UnitResults) (weight counter : Nat) : UnitResults :=
  { u with ties := u.ties + weight, correctedTies := u.correctedTies + (weight : ℚ) / (counter : ℚ) }

/-- src/equity_calculator/simulator.rs:578-586 `AddAssign::add_assign` -/
def addAssign (u o : UnitResults) : UnitResults :=
  let wins := u.wins + o.wins
  let total := u.total + o.total
  let correctedTies := u.correctedTies + o.correctedTies
  { u with
    wins := wins, ties := u.ties + o.ties, total := total, correctedTies := correctedTies,
    equity := fdiv ((wins : ℚ) + correctedTies) (total : ℚ) }

end UnitResults

/-- src/equity_calculator/simulator.rs:614-618 `struct SimulationResultsBatch` -/
structure Batch where
  winsByMask : Nat → Nat
  playerIds : Nat → Nat
  evalCount : Nat

/-- src/equity_calculator/simulator.rs:620-632 `SimulationResultsBatch::init` -/
def Batch.init (n : Nat) : Batch :=
  { winsByMask := fun _ => 0,
    playerIds := (List.range n).foldl (fun ids i => Function.update ids i i) (fun _ => 0),
    evalCount := 0 }

/-- The hand results collected by one thread (`Vec<UnitResults>`). (src/equity_calculator/simulator.rs:691) -/
abbrev HandStats := Nat → UnitResults

/-- `vec![UnitResults::default(); self.n_players*NUM_HANDS]` (src/equity_calculator/simulator.rs:691, 755, 994) -/
def HandStats.init : HandStats := fun _ => UnitResults.default

/-- The variables of the loop of `evaluate_hands`. (src/equity_calculator/simulator.rs:1255-1260) -/
structure Scan where
  winnerMask : Nat
  best : Nat
  playerMask : Nat
  counter : Nat
  indexes : Nat → Nat

/-- src/equity_calculator/simulator.rs:1262-1285: one iteration of the loop of `evaluate_hands`.  `player_mask <<= 1` on a
`u8` drops the bit that is shifted out. -/
def scanStep (s : Scan) (i score : Nat) : Scan :=
  let s :=
    if score > s.best then
      { s with best := score, winnerMask := s.playerMask, indexes := Function.update s.indexes 0 i, counter := 1 }
    else if score = s.best then
      { s with winnerMask := s.winnerMask ||| s.playerMask, indexes := Function.update s.indexes s.counter i,
               counter := s.counter + 1 }
    else s
  { s with playerMask := (s.playerMask <<< 1) % 2 ^ 8 }

/-- src/equity_calculator/simulator.rs:1263-1268: the score of one player -/
def handScore (board hand : Hand) (flush : Bool) : Nat :=
  if flush then (board + hand).evaluate else (board + hand).evaluateWithoutFlush

/-- src/equity_calculator/simulator.rs:1256-1285: the loop of `evaluate_hands` -/
def scan (n : Nat) (hands : Nat → Hand) (board : Hand) (flush : Bool) : Scan :=
  (List.range n).foldl (fun s i => scanStep s i (handScore board (hands i) flush))
    { winnerMask := 0, best := 0, playerMask := 1, counter := 0, indexes := fun _ => 0 }

/-- Assignment to one element of a results vector. (src/equity_calculator/simulator.rs:1117-1146, 1288-1299) -/
def modify (hs : HandStats) (k : Nat) (f : UnitResults → UnitResults) : HandStats := Function.update hs k (f (hs k))

/-- src/equity_calculator/simulator.rs:1245-1301 `evaluate_hands` -/
def evaluateHands (n : Nat) (hands : Nat → Hand) (weight : Nat) (board : Hand) (lookup : Nat → Nat)
    (flush : Bool) (st : Batch × HandStats) : Batch × HandStats :=
  let s := scan n hands board flush
  let hs := (List.range n).foldl (fun hs i => modify hs (lookup i) (·.updateTotal weight)) st.2
  let hs :=
    if s.counter = 1 then modify hs (lookup (s.indexes 0)) (·.updateWins weight)
    else (List.range s.counter).foldl (fun hs j => modify hs (lookup (s.indexes j)) (·.updateTies weight s.counter)) hs
  ({ st.1 with
      winsByMask := Function.update st.1.winsByMask s.winnerMask (st.1.winsByMask s.winnerMask + weight),
      evalCount := st.1.evalCount + 1 }, hs)

/-- src/equity_calculator/simulator.rs:258-284 `struct SimulationResults` -/
structure Results where
  wins : Nat → Nat
  ties : Nat → ℚ
  winsByMask : Nat → Nat
  equities : List (Option ℚ)
  evalCount : Nat
  batchSum : ℚ
  batchSum2 : ℚ
  batchCount : ℚ
  stdev : ℚ
  handResults : Nat → UnitResults
  comboResults : List UnitResults
  boardResults : Nat → UnitResults
  boardDraws : Nat → UnitResults

/-- src/equity_calculator/simulator.rs:287-303 `SimulationResults::init` -/
def Results.init (n : Nat) : Results :=
  { wins := fun _ => 0, ties := fun _ => 0, winsByMask := fun _ => 0, equities := List.replicate n (some 0),
    evalCount := 0, batchSum := 0, batchSum2 := 0, batchCount := 0, stdev := 0,
    handResults := fun _ => UnitResults.default, comboResults := [],
    boardResults := fun _ => UnitResults.default, boardDraws := fun _ => UnitResults.default }

/-- The fields of the results changed by the loops of `update_results`, and `batch_hands`, `batch_equity`.
(src/equity_calculator/simulator.rs:1119-1121) -/
structure Merge where
  wins : Nat → Nat
  ties : Nat → ℚ
  winsByMask : Nat → Nat
  batchHands : Nat
  batchEquity : ℚ

/-- src/equity_calculator/simulator.rs:1129-1145: the inner loop over the players of the mask `i`; the second component is
`actual_player_mask` -/
def mergePlayers (n : Nat) (b : Batch) (i : Nat) (m : Merge) : Merge × Nat :=
  let winnerCount := countOnes i
  (List.range n).foldl (fun (m, actual) j =>
    if i &&& (1 <<< j) ≠ 0 then
      let p := b.playerIds j
      let m :=
        if winnerCount = 1 then
          { m with
            wins := Function.update m.wins p (m.wins p + b.winsByMask i),
            batchEquity := if p = 0 then m.batchEquity + (b.winsByMask i : ℚ) else m.batchEquity }
        else
          { m with
            ties := Function.update m.ties p (m.ties p + ((b.winsByMask i / winnerCount : Nat) : ℚ)),
            batchEquity := if p = 0 then m.batchEquity + ((b.winsByMask i / winnerCount : Nat) : ℚ) else m.batchEquity }
      (m, actual ||| (1 <<< p))
    else (m, actual)) (m, 0)

/-- src/equity_calculator/simulator.rs:1125-1147: the loop over the masks -/
def mergeMasks (n : Nat) (b : Batch) (m : Merge) : Merge :=
  (List.range (1 <<< n)).foldl (fun m i =>
    let m := { m with batchHands := m.batchHands + b.winsByMask i }
    let x := mergePlayers n b i m
    { x.1 with
      winsByMask := Function.update x.1.winsByMask x.2 (x.1.winsByMask x.2 + b.winsByMask i) }) m

/-- The `f64` literal `1e-9`. (src/equity_calculator/simulator.rs:1148, 1155) -/
def eps : ℚ := 1 / 10 ^ 9

/-- src/equity_calculator/simulator.rs:1117-1158: the effect of `update_results` on the results.  `sqrt` is `f64::sqrt`. -/
def updateResults (sqrt : ℚ → ℚ) (n : Nat) (calcExact : Bool) (b : Batch) (hb : HandStats) (r : Results) : Results :=
  let hand := fun k => if k < NUM_HANDS * n then (r.handResults k).addAssign (hb k) else r.handResults k
  let m := mergeMasks n b ⟨r.wins, r.ties, r.winsByMask, 0, 0⟩
  let batchEquity := m.batchEquity / ((m.batchHands : ℚ) + eps)
  let r := { r with
    handResults := hand, wins := m.wins, ties := m.ties, winsByMask := m.winsByMask,
    evalCount := r.evalCount + b.evalCount }
  if calcExact then r
  else
    let sum := r.batchSum + batchEquity
    let sum2 := r.batchSum2 + batchEquity * batchEquity
    let count := r.batchCount + 1
    { r with batchSum := sum, batchSum2 := sum2, batchCount := count,
             stdev := sqrt (eps + sum2 - sum * sum / count) / count }

/-- Rust `x as u8` for an `f64`: truncation with saturation. (src/equity_calculator/simulator.rs:1160, 1168) -/
def castU8 (x : ℚ) : Nat := (min ⌊x⌋ 255).toNat

/-- src/equity_calculator/simulator.rs:1168: the progress reported in exact mode -/
def progressExact (enumPos total : Nat) : Nat := castU8 ((enumPos : ℚ) / (total : ℚ) * 100)

/-- src/equity_calculator/simulator.rs:1160: the progress reported in approximate mode.  (With `stdev` zero the quotient is
infinite, which `as u8` turns into 255; with `target` zero it is zero.) -/
def progressApprox (stdev target : ℚ) : Nat :=
  if stdev = 0 ∧ target ≠ 0 then 255 else castU8 (1 / (stdev / target) ^ 2 * 100)

/-- src/equity_calculator/simulator.rs:304-316 `get_equity` -/
def getEquity (n : Nat) (r : Results) : Results :=
  let equity := (List.range n).map fun i => (0 : ℚ) + (r.wins i : ℚ) + r.ties i
  let sum := equity.foldl (· + ·) 0
  { r with equities := equity.map fun e => fdiv e sum }

/-- The variables of the loop at lines 336-341 of `generate_final_data`. -/
structure Agg where
  counter : Nat := 0
  weight : Nat := 0
  wins : Nat := 0
  ties : Nat := 0
  correctedTies : ℚ := 0
  total : Nat := 0

/-- src/equity_calculator/simulator.rs:342-346 `batch_size` -/
def batchSize (j : Nat) : Nat := if j < 78 then 6 else if j < 390 then 4 else 12

/-- src/equity_calculator/simulator.rs:350-363: one hand in the loop over the hands of a combo -/
def finalHand (hand : UnitResults) (a : Agg) : UnitResults × Agg :=
  if hand.valid then
    if hand.total > 0 then
      ({ hand with
          winrate := fdiv (hand.wins : ℚ) (hand.total : ℚ), tierate := fdiv (hand.ties : ℚ) (hand.total : ℚ) },
       { counter := a.counter + 1, weight := a.weight + hand.weight, wins := a.wins + hand.wins, ties := a.ties + hand.ties,
         correctedTies := a.correctedTies + hand.correctedTies, total := a.total + hand.total })
    else ({ hand with equity := some 0 }, a)
  else (hand, a)

/-- src/equity_calculator/simulator.rs:365-391: the combo result made from the sums -/
def finalCombo (size : Nat) (a : Agg) : UnitResults :=
  if a.counter > 0 then
    let ratio := if a.total > U64_MAX then a.total / U64_MAX + 1 else 1
    let wins := if a.total > U64_MAX then a.wins / ratio else a.wins
    let ties := if a.total > U64_MAX then a.ties / ratio else a.ties
    let total := if a.total > U64_MAX then a.total / ratio else a.total
    let correctedTies := if a.total > U64_MAX then a.correctedTies / (ratio : ℚ) else a.correctedTies
    { wins := wins % 2 ^ 64, ties := ties % 2 ^ 64, total := total % 2 ^ 64, correctedTies := correctedTies,
      equity := fdiv ((wins : ℚ) + correctedTies) (total : ℚ), winrate := fdiv (wins : ℚ) (total : ℚ),
      tierate := fdiv (ties : ℚ) (total : ℚ), weight := a.weight / size, rank := 255, draw := 0, valid := true }
  else UnitResults.default

/-- src/equity_calculator/simulator.rs:347-364: the loop over the `size` hands from `start` -/
def finalHands (start size : Nat) (hr : Nat → UnitResults) : (Nat → UnitResults) × Agg :=
  (List.range size).foldl (fun (hr, a) k =>
    let x := finalHand (hr (start + k)) a
    (Function.update hr (start + k) x.1, x.2)) (hr, {})

/-- src/equity_calculator/simulator.rs:334-393: the loop over the combos of player `i` -/
def finalPlayer (i : Nat) : Nat → Nat → (Nat → UnitResults) → List UnitResults → (Nat → UnitResults) × List UnitResults
  | 0, _, hr, cs => (hr, cs)
  | fuel + 1, j, hr, cs =>
    if j < NUM_HANDS then
      let x := finalHands (i * NUM_HANDS + j) (batchSize j) hr
      finalPlayer i fuel (j + batchSize j) x.1 (cs ++ [finalCombo (batchSize j) x.2])
    else (hr, cs)

/-- src/equity_calculator/simulator.rs:331-396 `generate_final_data` -/
def generateFinalData (n : Nat) (r : Results) : Results :=
  let x := (List.range n).foldl (fun (hr, cs) i => finalPlayer i NUM_HANDS 0 hr cs) (r.handResults, r.comboResults)
  { r with handResults := x.1, comboResults := x.2 }

/-- src/equity_calculator/simulator.rs:591-597 `struct BigUnitResults` -/
structure BigUnitResults where
  wins : Nat := 0
  ties : Nat := 0
  total : Nat := 0
  correctedTies : ℚ := 0
  weight : Nat := 0
deriving DecidableEq

/-- src/equity_calculator/simulator.rs:407-411 (also 418-422 and 442-446): add a hand -/
def BigUnitResults.addHand (b : BigUnitResults) (h : UnitResults) : BigUnitResults :=
  { wins := b.wins + h.wins, ties := b.ties + h.ties, total := b.total + h.total,
    correctedTies := b.correctedTies + h.correctedTies, weight := b.weight + h.weight }

/-- src/equity_calculator/simulator.rs:427-439: the index of the nut-draw statistics the hand belongs to -/
def nutIndex (draw : Nat) : Option Nat :=
  let mask := 1 <<< 7
  if draw &&& mask ≠ 0 then
    let check1 := draw &&& (mask >>> 1) ≠ 0
    let check2 := draw &&& (mask >>> 2) ≠ 0
    if ¬ check1 ∧ ¬ check2 then some 9 else if check2 then some 8 else if check1 then some 7 else none
  else none

/-- src/equity_calculator/simulator.rs:403-449: add one hand of player `i` to the two tables of sums, by category and by draw
(that the index `rank` is in bounds is theorem `C68_finish`). -/
def boardHand (i : Nat) (hand : UnitResults) (t : (Nat → BigUnitResults) × (Nat → BigUnitResults)) :
    (Nat → BigUnitResults) × (Nat → BigUnitResults) :=
  if hand.valid then
    let ranks := Function.update t.1 (i * 9 + hand.rank) ((t.1 (i * 9 + hand.rank)).addHand hand)
    let draws := (List.range 7).foldl (fun d k =>
      if hand.draw &&& (1 <<< k) ≠ 0 then Function.update d (i * 10 + k) ((d (i * 10 + k)).addHand hand) else d) t.2
    let draws := match nutIndex hand.draw with
      | some k => Function.update draws (i * 10 + k) ((draws (i * 10 + k)).addHand hand)
      | none => draws
    (ranks, draws)
  else t

/-- src/equity_calculator/simulator.rs:452-487: the published numbers of one table entry -/
def boardUnit (b : BigUnitResults) (u : UnitResults) : UnitResults :=
  if b.total > 0 then
    let ratio := if b.total > U64_MAX then b.total / U64_MAX + 1 else 1
    let wins := (b.wins / ratio) % 2 ^ 64
    let ties := (b.ties / ratio) % 2 ^ 64
    let total := (b.total / ratio) % 2 ^ 64
    let correctedTies := b.correctedTies / (ratio : ℚ)
    { u with
      wins := wins, ties := ties, total := total, correctedTies := correctedTies, weight := b.weight,
      equity := fdiv ((wins : ℚ) + correctedTies) (total : ℚ), winrate := fdiv (wins : ℚ) (total : ℚ),
      tierate := fdiv correctedTies (total : ℚ) }
  else u

/-- src/equity_calculator/simulator.rs:399-451: the tables of sums -/
def boardTables (n : Nat) (hr : Nat → UnitResults) : (Nat → BigUnitResults) × (Nat → BigUnitResults) :=
  (List.range n).foldl (fun t i => (List.range NUM_HANDS).foldl (fun t j => boardHand i (hr (i * NUM_HANDS + j)) t) t)
    (fun _ => {}, fun _ => {})

/-- src/equity_calculator/simulator.rs:397-488 `generate_board_data` -/
def generateBoardData (n : Nat) (r : Results) : Results :=
  let t := boardTables n r.handResults
  { r with
    boardResults := fun k => if k < 9 * n then boardUnit (t.1 k) (r.boardResults k) else r.boardResults k,
    boardDraws := fun k => if k < 10 * n then boardUnit (t.2 k) (r.boardDraws k) else r.boardDraws k }

/-- src/equity_calculator/simulator.rs:317-323 `get_hand_result`; `none` is the error -/
def getHandResult (r : Results) (player : Nat) (hand : List Char) : Option UnitResults :=
  (HAND_TO_INDEX hand).map fun index => r.handResults (NUM_HANDS * player + index)

/-- src/equity_calculator/simulator.rs:324-330 `get_combo_result`; `none` is the error; the inner option is an index panic -/
def getComboResult (r : Results) (player : Nat) (combo : List Char) : Option (Option UnitResults) :=
  (COMBO_TO_INDEX combo).map fun index => r.comboResults[NUM_COMBOS * player + index]?

end Pokers
