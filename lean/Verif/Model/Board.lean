import Mathlib.Logic.Function.Basic
import Verif.Model.Hand
import Verif.Model.CombinedRange
/-!
Model of the board enumeration of `src/equity_calculator/simulator.rs` (`enumerate_board`, `enumerate_board_rec`).

The recursion has two kinds of effects: it calls `evaluate_hands` (whose effect on the counters does not influence the
enumeration) and it changes the buffers `deck` and `suit_counts` in place.  The model returns the list of calls, in order,
together with the new buffers.  `deck` is the list of the first `n_deck` entries of the buffer, `suit_counts` a function.
-/
namespace Pokers

/-- src/equity_calculator/simulator.rs:27 `BOARD_CARDS` -/
def BOARD_CARDS : Nat := 5

/-- One call of `evaluate_hands`: `weight`, `board` and `flush_possible`. (src/equity_calculator/simulator.rs:1245-1254) -/
structure Ev where
  weight : Nat
  board : Hand
  flush : Bool
deriving DecidableEq, Repr

/-- src/equity_calculator/simulator.rs:854-857: the inner loop; returns `multiplier` and `i` -/
def sameRankLoop (deck : List Nat) (rank : Nat) : Nat → Nat → Nat → Nat × Nat
  | 0, multiplier, i => (multiplier, i)
  | fuel + 1, multiplier, i =>
    if i < deck.length ∧ deck.getD i 0 >>> 2 = rank then sameRankLoop deck rank fuel (multiplier + 1) (i + 1)
    else (multiplier, i)

/-- src/equity_calculator/simulator.rs:848-859: the last card when no flush is possible -/
def lastNoFlush (board : Hand) (deck : List Nat) (weight : Nat) : Nat → Nat → List Ev
  | 0, _ => []
  | fuel + 1, i =>
    if i < deck.length then
      let newBoard := board + CARDS (deck.getD i 0)
      let rank := deck.getD i 0 >>> 2
      let r := sameRankLoop deck rank deck.length 1 (i + 1)
      ⟨weight * r.1, newBoard, false⟩ :: lastNoFlush board deck weight fuel r.2
    else []

/-- src/equity_calculator/simulator.rs:869-876: count the later cards of the same rank that cannot complete a flush -/
def countLoop (deck : List Nat) (sc : Nat → Nat) (rank : Nat) : Nat → Nat → Nat → Nat
  | 0, multiplier, _ => multiplier
  | fuel + 1, multiplier, j =>
    if j < deck.length then
      if deck.getD j 0 >>> 2 ≠ rank then multiplier
      else countLoop deck sc rank fuel (if sc (deck.getD j 0 &&& 3) < 4 then multiplier + 1 else multiplier) (j + 1)
    else multiplier

/-- src/equity_calculator/simulator.rs:861-881: the last card when a flush is possible; `lastRank` is `u8::MAX` at first -/
def lastFlush (board : Hand) (deck : List Nat) (sc : Nat → Nat) (weight : Nat) : Nat → Nat → Nat → List Ev
  | 0, _, _ => []
  | fuel + 1, lastRank, i =>
    if i < deck.length then
      let c := deck.getD i 0
      if sc (c &&& 3) < 4 then
        let rank := c >>> 2
        if rank = lastRank then lastFlush board deck sc weight fuel lastRank (i + 1)
        else
          let multiplier := countLoop deck sc rank deck.length 1 (i + 1)
          ⟨weight * multiplier, board + CARDS c, true⟩ :: lastFlush board deck sc weight fuel rank (i + 1)
      else ⟨weight * 1, board + CARDS c, true⟩ :: lastFlush board deck sc weight fuel lastRank (i + 1)
    else []

/-- Rust `slice::swap`. (src/equity_calculator/simulator.rs:899) -/
def swap (deck : List Nat) (a b : Nat) : List Nat := (deck.set a (deck.getD b 0)).set b (deck.getD a 0)

/-- src/equity_calculator/simulator.rs:892-903: move the irrelevant cards of the same rank to the front; returns the deck and
`irrelevant_count` -/
def gatherLoop (sc : Nat → Nat) (r rank i : Nat) : Nat → Nat → List Nat → Nat → List Nat × Nat
  | 0, _, deck, cnt => (deck, cnt)
  | fuel + 1, j, deck, cnt =>
    if j < deck.length then
      if deck.getD j 0 >>> 2 ≠ rank then (deck, cnt)
      else if sc (deck.getD j 0 &&& 3) + r < 5 then
        gatherLoop sc r rank i fuel (j + 1) (if j ≠ i + cnt then swap deck j (i + cnt) else deck) (cnt + 1)
      else gatherLoop sc r rank i fuel (j + 1) deck cnt
    else (deck, cnt)

/-- src/equity_calculator/simulator.rs:907-913 `BINOM_COEFF` -/
def BINOM_COEFF : List (List Nat) :=
  [[0, 0, 0, 0, 0], [0, 1, 0, 0, 0], [1, 2, 1, 0, 0], [1, 3, 3, 1, 0], [1, 4, 6, 4, 1]]

/-- The buffers used by the recursion. (src/equity_calculator/simulator.rs:828-840) -/
abbrev Bufs := List Nat × (Nat → Nat)

/-- A recursive call: board, deck, suit counts, cards remaining, start and weight. (src/equity_calculator/simulator.rs:828-840) -/
abbrev RecCall := Hand → List Nat → (Nat → Nat) → Nat → Nat → Nat → List Ev × Bufs

/-- src/equity_calculator/simulator.rs:905-933: the loop over the number `repeats` of irrelevant cards that are used -/
def repeatLoop (child : RecCall) (r i cnt weight : Nat) :
    Nat → Nat → Hand → List Nat → (Nat → Nat) → List Ev × Bufs
  | 0, _, _, deck, sc => ([], deck, sc)
  | fuel + 1, repeats, newBoard, deck, sc =>
    let newWeight := (BINOM_COEFF.getD cnt []).getD repeats 0 * weight
    let newBoard := newBoard + CARDS (deck.getD (i + repeats - 1) 0)
    if repeats = r then
      let rest := repeatLoop child r i cnt weight fuel (repeats + 1) newBoard deck sc
      (⟨newWeight, newBoard, true⟩ :: rest.1, rest.2)
    else
      let x := child newBoard deck sc (r - repeats) (i + cnt) newWeight
      let rest := repeatLoop child r i cnt weight fuel (repeats + 1) newBoard x.2.1 x.2.2
      (x.1 ++ rest.1, rest.2)

/-- src/equity_calculator/simulator.rs:886-956: the main loop -/
def boardLoop (child : RecCall) (board : Hand) (r weight : Nat) :
    Nat → Nat → List Nat → (Nat → Nat) → List Ev × Bufs
  | 0, _, deck, sc => ([], deck, sc)
  | fuel + 1, i, deck, sc =>
    if i < deck.length then
      let suit := deck.getD i 0 &&& 3
      if sc suit + r < 5 then
        let g := gatherLoop sc r (deck.getD i 0 >>> 2) i deck.length (i + 1) deck 1
        let x := repeatLoop child r i g.2 weight (min g.2 r) 1 board g.1 sc
        let rest := boardLoop child board r weight fuel (i + (g.2 - 1) + 1) x.2.1 x.2.2
        (x.1 ++ rest.1, rest.2)
      else
        let newBoard := board + CARDS (deck.getD i 0)
        let sc1 := Function.update sc suit (sc suit + 1)
        let x := child newBoard deck sc1 (r - 1) (i + 1) weight
        let sc2 := Function.update x.2.2 suit (x.2.2 suit - 1)
        let rest := boardLoop child board r weight fuel (i + 1) x.2.1 sc2
        (x.1 ++ rest.1, rest.2)
    else ([], deck, sc)

/-- src/equity_calculator/simulator.rs:828-957 `enumerate_board_rec`; the first argument bounds the recursion depth
(`cards_remaining` decreases with every call). -/
def enumerateBoardRec : Nat → RecCall
  | 0, _, deck, sc, _, _, _ => ([], deck, sc)
  | depth + 1, board, deck, sc, r, start, weight =>
    if r = 1 then
      if sc 0 < 4 ∧ sc 1 < 4 ∧ sc 2 < 4 ∧ sc 3 < 4 then
        (lastNoFlush board deck weight deck.length start, deck, sc)
      else (lastFlush board deck sc weight deck.length 255 start, deck, sc)
    else boardLoop (enumerateBoardRec depth) board r weight deck.length start deck sc

/-- src/equity_calculator/simulator.rs:788-795: the deck of unused cards -/
def makeDeck (usedMask : Nat) : List Nat :=
  (List.range CARD_COUNT).reverse.filter fun i => usedMask &&& (1 <<< i) = 0

/-- src/equity_calculator/simulator.rs:797-811: the largest number of hole cards of each suit held by one player, plus the
board cards of the suit -/
def suitCounts (n : Nat) (holes : Nat → Hole) (board : Hand) : Nat → Nat :=
  let sc := (List.range n).foldl (fun sc i =>
    let s1 := (holes i).1 &&& 3
    let s2 := (holes i).2.1 &&& 3
    if s1 = s2 then Function.update sc s1 (max 2 (sc s1))
    else
      let sc := Function.update sc s1 (max 1 (sc s1))
      Function.update sc s2 (max 1 (sc s2))) (fun _ => 0)
  (List.range SUIT_COUNT).foldl (fun sc i => Function.update sc i (sc i + (board.suitCount i).toNat)) sc

/-- src/equity_calculator/simulator.rs:782-825: the calls of `evaluate_hands` made by `enumerate_board` -/
def boardEvents (n : Nat) (holes : Nat → Hole) (weight : Nat) (board : Hand) (usedMask : Nat) : List Ev :=
  let r := BOARD_CARDS - board.count
  if r = 0 then [⟨weight, board, true⟩]
  else (enumerateBoardRec r board (makeDeck usedMask) (suitCounts n holes board) r 0 weight).1

end Pokers
