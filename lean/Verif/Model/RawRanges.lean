import Verif.Model.Unchecked
import Verif.Model.Simulator
/-!
`exact_equity` on ranges that a caller builds by hand, up to the start of the threads.

`HandRange` and `Combo` have public fields, so a range need not come from a text: the two cards of a hand can be any `u8`, also
twice the same.  The first part of the calculation is repeated here with the checks and the unchecked reads of `Unchecked.lean`.
-/
namespace Pokers

/-- src/hand_range.rs:117-120 `remove_conflicting_combos`, for any hands; `taken` is `board_mask | dead_mask` -/
def keepB (m : Profile) (taken : Nat) : List Combo → Ran (List Combo)
  | [] => .ok []
  | x :: xs => do
    let s1 ← shiftB m 64 x.c1
    let s2 ← shiftB m 64 x.c2
    let rest ← keepB m taken xs
    pure (if ((1 <<< s1) ||| (1 <<< s2)) &&& taken = 0 then x :: rest else rest)

/-- src/hand_range.rs:117-120, called for all ranges (src/equity_calculator/simulator.rs:90-93) -/
def keepAllB (m : Profile) (taken : Nat) : List (List Combo) → Ran (List (List Combo))
  | [] => .ok []
  | r :: rs => do
    let hands ← keepB m taken r
    let rest ← keepAllB m taken rs
    pure (hands :: rest)

/-- src/equity_calculator/combined_range.rs:62-68: what can go wrong in the loop of `from_range` -/
def buildB (m : Profile) : List Combo → Ran Unit
  | [] => .ok ()
  | x :: xs => do
    let _ ← shiftB m 64 x.c1
    let _ ← shiftB m 64 x.c2
    let _ ← Hand.fromHoleCardsB m x.c1 x.c2
    buildB m xs

/-- src/equity_calculator/combined_range.rs:74-78: `from_range` for all ranges -/
def buildAllB (m : Profile) : List (List Combo) → Ran Unit
  | [] => .ok ()
  | r :: rs => do
    buildB m r
    buildAllB m rs

/-- src/equity_calculator/simulator.rs:1205-1206: the calls of `get_card_index` in `save_hand_weights` -/
def indicesB (m : Profile) : List Combo → Ran Unit
  | [] => .ok ()
  | x :: xs => do
    let _ ← getCardIndexB m x.c1 x.c2
    indicesB m xs

/-- src/equity_calculator/simulator.rs:1202: the same for all ranges -/
def indicesAllB (m : Profile) : List (List Combo) → Ran Unit
  | [] => .ok ()
  | r :: rs => do
    indicesB m r
    indicesAllB m rs

/-- src/equity_calculator/simulator.rs:77-111: `exact_equity` up to and including `save_hand_weights`.  After `from_range` all hands
consist of numbers of cards, and the rest is as in `prepareExact`. -/
def startB (m : Profile) (ranges : List (List Combo)) (boardMask deadMask : Nat) : Ran (Except SimulatorError Sim) :=
  match validate ranges.length boardMask deadMask with
  | some e => .ok (.error e)
  | none => do
    let handRanges ← keepAllB m (boardMask ||| deadMask) ranges
    buildAllB m handRanges
    let crs := CombinedRange.fromRanges handRanges
    if crs.any fun cr => cr.size == 0 then pure (.error .ConflictingRanges)
    else do
      indicesAllB m handRanges
      pure (.ok (Sim.new handRanges crs boardMask deadMask true))

/-- src/hand_range.rs:485-491 `hole_to_string`, for any two `u8` -/
def holeToStringB (m : Profile) (hole : Nat × Nat) : Ran (List Char) := do
  let a ← shiftB m 64 hole.1
  let b ← shiftB m 64 hole.2
  pure (maskToString ((1 <<< a) ||| (1 <<< b)))

/-- src/hand_range.rs:480-482 `holes_to_strings`, for any pairs -/
def holesToStringsB (m : Profile) : List (Nat × Nat) → Ran (List (List Char))
  | [] => .ok []
  | x :: xs => do
    let s ← holeToStringB m x
    let rest ← holesToStringsB m xs
    pure (s :: rest)

end Pokers
