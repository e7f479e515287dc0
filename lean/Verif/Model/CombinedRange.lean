import Mathlib.Logic.Function.Basic
import Verif.Model.Hand
import Verif.Model.HandRange
/-!
Model of `src/equity_calculator/combined_range.rs`.

Fixed-size arrays indexed by player (`[T; MAX_PLAYERS]`) are functions from indices; `Function.update` is assignment to an
element.  (That only the indices below `MAX_PLAYERS` are used is part of theorem `C27_players`.)  `Vec`s are lists.
-/
namespace Pokers

/-- Hole cards with weight, `(u8, u8, u8)`. (src/equity_calculator/combined_range.rs:20) -/
abbrev Hole := Nat × Nat × Nat

/-- src/equity_calculator/combined_range.rs:7 `MAX_PLAYERS` -/
def MAX_PLAYERS : Nat := 9
/-- src/equity_calculator/combined_range.rs:10 `MAX_SIZE` -/
def MAX_SIZE : Nat := 10000

/-- src/equity_calculator/combined_range.rs:14-21 `struct Combo` (renamed: `Combo` is the model of `HandRange`'s hands) -/
structure JointCombo where
  mask : Nat
  hands : Nat → Hand
  holeCards : Nat → Hole

/-- src/equity_calculator/combined_range.rs:24-30 `Combo::new` -/
def JointCombo.new : JointCombo :=
  { mask := 0, hands := fun _ => Hand.default, holeCards := fun _ => (52, 52, 0) }

/-- src/equity_calculator/combined_range.rs:35-41 `struct CombinedRange` -/
structure CombinedRange where
  playerCount : Nat
  players : Nat → Nat
  combos : List JointCombo
  size : Nat

namespace CombinedRange

/-- src/equity_calculator/combined_range.rs:43-52 `CombinedRange::default` -/
def default : CombinedRange := { playerCount := 0, players := fun _ => 0, combos := [], size := 0 }

/-- src/equity_calculator/combined_range.rs:63-67: the body of the loop of `from_range` -/
def comboOf (r : Combo) : JointCombo :=
  { mask := (1 <<< r.c1) ||| (1 <<< r.c2),
    hands := Function.update JointCombo.new.hands 0 (Hand.fromHoleCards r.c1 r.c2),
    holeCards := Function.update JointCombo.new.holeCards 0 (r.c1, r.c2, r.w) }

/-- src/equity_calculator/combined_range.rs:58-71 `from_range` -/
def fromRange (range : List Combo) (playerIdx : Nat) : CombinedRange :=
  { playerCount := 1, players := Function.update default.players 0 playerIdx,
    combos := range.map comboOf, size := (range.map comboOf).length }

/-- The loop `for i in 0..n { dst[off + i] = src[i] }`. (src/equity_calculator/combined_range.rs:107-112, 121-126) -/
def copyLoop {α : Type} (dst src : Nat → α) (off n : Nat) : Nat → α :=
  (List.range n).foldl (fun a i => Function.update a (off + i) (src i)) dst

/-- src/equity_calculator/combined_range.rs:120-131: the combination of two compatible combos -/
def joinCombo (n1 n2 : Nat) (c1 c2 : JointCombo) : JointCombo :=
  let hole := copyLoop (copyLoop JointCombo.new.holeCards c1.holeCards 0 n1) c2.holeCards n1 n2
  { mask := c1.mask ||| c2.mask, holeCards := hole,
    hands := (List.range (n1 + n2)).foldl
      (fun a i => Function.update a i (Hand.fromHoleCards (hole i).1 (hole i).2.1)) JointCombo.new.hands }

/-- src/equity_calculator/combined_range.rs:115-134: the two nested loops of `join` -/
def joinCombos (a b : CombinedRange) : List JointCombo :=
  a.combos.flatMap fun c1 => b.combos.filterMap fun c2 =>
    if c1.mask &&& c2.mask ≠ 0 then none else some (joinCombo a.playerCount b.playerCount c1 c2)

/-- src/equity_calculator/combined_range.rs:105-137 `join` -/
def join (a b : CombinedRange) : CombinedRange :=
  { playerCount := a.playerCount + b.playerCount,
    players := copyLoop (copyLoop default.players a.players 0 a.playerCount) b.players a.playerCount b.playerCount,
    combos := joinCombos a b, size := (joinCombos a b).length }

/-- src/equity_calculator/combined_range.rs:138-148 `estimate_join_size` -/
def estimateJoinSize (a b : CombinedRange) : Nat :=
  a.combos.foldl (fun size c1 => b.combos.foldl
    (fun size c2 => if c1.mask &&& c2.mask = 0 then size + 1 else size) size) 0

/-- src/equity_calculator/combined_range.rs:81-93: the search for the pair with the smallest join,
`(best_size, best_i, best_j)` -/
def bestPair (crs : List CombinedRange) : Nat × Nat × Nat :=
  (List.range crs.length).foldl (fun st i => (List.range i).foldl (fun st j =>
    let s := estimateJoinSize (crs.getD i default) (crs.getD j default)
    if s < st.1 then (s, i, j) else st) st) (2 ^ 64 - 1, 0, 0)

/-- src/equity_calculator/combined_range.rs:95-97: join the ranges `best_j` and `best_i` -/
def joinAt (crs : List CombinedRange) (bi bj : Nat) : List CombinedRange :=
  (crs.set bj (join (crs.getD bj default) (crs.getD bi default))).eraseIdx bi

/-- src/equity_calculator/combined_range.rs:80-101: the loop, with a bound on the number of iterations -/
def combineLoop : Nat → List CombinedRange → List CombinedRange
  | 0, crs => crs
  | fuel + 1, crs =>
    let b := bestPair crs
    if b.1 < MAX_SIZE then combineLoop fuel (joinAt crs b.2.1 b.2.2) else crs

/-- src/equity_calculator/combined_range.rs:73-103 `from_ranges`.  Every iteration of the loop but the last removes one
element, and with fewer than two elements the loop ends (`C27_fuel`). -/
def fromRanges (ranges : List (List Combo)) : List CombinedRange :=
  combineLoop ranges.length (ranges.mapIdx fun i r => fromRange r i)

end CombinedRange
end Pokers
