import Verif.Model.Constants
import Verif.Tables.Lookup
import Verif.Tables.FlushLookup
import Verif.Tables.HashOffsets
import Verif.Tables.Maps
/-!
Model of `src/hand_evaluator/hand.rs` and `src/hand_evaluator/cards.rs`.

Machine integers are natural numbers; results of `u64`/`u32`/`u16` operations that can exceed the width are reduced
explicitly.  Bit intrinsics (`count_ones`, `leading_zeros`, `trailing_zeros`) are defined here.
-/
namespace Pokers

/-- Rust `u64::count_ones` (also used for `u16`/`u32` values, which are below `2^64`). (src/hand_evaluator/hand.rs:37, 57-60, 91) -/
def countOnes (x : Nat) : Nat := ((List.range 64).filter (fun i => x.testBit i)).length

/-- Number of significant bits: position of the highest set bit plus one. (src/hand_evaluator/hand.rs:120, 144, 237, 267) -/
def bitLen (x : Nat) : Nat := if x = 0 then 0 else Nat.log2 x + 1

/-- Rust `leading_zeros` of a `w`-bit value. (src/hand_evaluator/hand.rs:120, 144, 237, 267) -/
def leadingZeros (w x : Nat) : Nat := w - bitLen x

/-- Rust `u64::trailing_zeros`. (src/hand_evaluator/hand.rs:266) -/
def trailingZeros (x : Nat) : Nat := ((List.range 64).find? (fun i => x.testBit i)).getD 64

/-- src/hand_evaluator/hand.rs:159-162 `struct Hand` -/
structure Hand where
  key : Nat
  mask : Nat
deriving DecidableEq, Repr

namespace Hand

/-- src/hand_evaluator/hand.rs:308-313 `Hand::default` -/
def default : Hand := { key := 0x3333 <<< SUITS_SHIFT, mask := 0 }

/-- src/hand_evaluator/hand.rs:316-325 `Add::add` and 327-332 `AddAssign::add_assign`.
The `u64` addition is modelled as wrapping (release build); theorem `C09_no_key_overflow` shows that no wrap happens for
real hands, so the debug build does not panic either. -/
def add (a b : Hand) : Hand := { key := (a.key + b.key) % 2 ^ 64, mask := a.mask ||| b.mask }

instance : Add Hand := ⟨add⟩

/-- src/hand_evaluator/hand.rs:334-338 `PartialEq::eq` -/
def beq (a b : Hand) : Bool := a.mask == b.mask && a.key == b.key

end Hand

/-- src/hand_evaluator/cards.rs:4-57 `CARDS`.  All 52 entries are instances of one formula in the index; `c < 52`. -/
def CARDS (c : Nat) : Hand :=
  { key := (1 <<< (4 * (c &&& 3) + SUITS_SHIFT)) + (1 <<< CARD_COUNT_SHIFT) + RANKS.getD (c >>> 2) 0,
    mask := 1 <<< ((3 - (c &&& 3)) * 16 + (c >>> 2)) }

namespace Hand

/-- src/hand_evaluator/hand.rs:165-168 `from_hole_cards` -/
def fromHoleCards (c1 c2 : Nat) : Hand := CARDS c1 + CARDS c2

/-- src/hand_evaluator/hand.rs:170-179 `from_bit_mask` -/
def fromBitMask (mask : Nat) : Hand :=
  (List.range CARD_COUNT).foldl
    (fun board c => if mask &&& (1 <<< c) ≠ 0 then board + CARDS c else board) default

/-- src/hand_evaluator/hand.rs:181-186 `contains` -/
def contains (h : Hand) (card : Nat) : Bool :=
  h.mask &&& (1 <<< ((3 - card % 4) * 16 + card / 4)) != 0

/-- src/hand_evaluator/hand.rs:198-204 `get_suit_mask` (for `suit < 4`; a larger `suit` underflows, see `getDraw`) -/
def getSuitMask (h : Hand) (suit : Nat) : Nat := ((h.mask >>> (16 * (3 - suit))) &&& 0xFFFF) % 2 ^ 16

/-- src/hand_evaluator/hand.rs:205-213 `get_rank_mask` -/
def getRankMask (h : Hand) : Nat :=
  ((List.range 4).foldl (fun rm i => rm ||| ((h.mask >>> (16 * (3 - i))) &&& 0xFFFF)) 0) % 2 ^ 16

/-- src/hand_evaluator/hand.rs:214-221 `get_rank_key` -/
def getRankKey (h : Hand) : Nat := h.key % 2 ^ 32

/-- src/hand_evaluator/hand.rs:222-226 `get_counters` -/
def getCounters (h : Hand) : Nat := (h.key >>> 32) % 2 ^ 32

/-- src/hand_evaluator/hand.rs:245-248 `has_flush` -/
def hasFlush (h : Hand) : Bool := h.key &&& FLUSH_CHECK_MASK64 != 0

/-- src/hand_evaluator/hand.rs:227-244 `get_flush_key` -/
def getFlushKey (h : Hand) : Nat :=
  if h.hasFlush then
    let flushCheckBits := h.getCounters &&& FLUSH_CHECK_MASK32
    let shift := leadingZeros 32 flushCheckBits <<< 2
    (h.mask >>> shift) % 2 ^ 16
  else 0

/-- src/hand_evaluator/hand.rs:249-253 `count` -/
def count (h : Hand) : Nat := (h.getCounters >>> (CARD_COUNT_SHIFT - 32)) &&& 0xf

/-- src/hand_evaluator/hand.rs:255-260 `suit_count` (an `i32`) -/
def suitCount (h : Hand) (suit : Nat) : Int :=
  (((h.getCounters >>> (4 * suit + (SUITS_SHIFT - 32))) &&& 0xf : Nat) : Int) - 3

/-- Rust `x as usize` for an `i16` stored in two's complement. (src/hand_evaluator/hand.rs:20, 270) -/
def i16AsUsize (x : Nat) : Nat := if x < 2 ^ 15 then x else 2 ^ 64 - (2 ^ 16 - x)

/-- src/hand_evaluator/hand.rs:262-271 `Hand::get_card_index` -/
def getCardIndex (h : Hand) : Nat :=
  let s := trailingZeros h.mask
  let b := 63 - leadingZeros 64 h.mask
  i16AsUsize (MASK_MAP.get (b ||| (s <<< 6)))

/-- src/hand_evaluator/hand.rs:286-292 `evaluate_without_flush` -/
def evaluateWithoutFlush (h : Hand) : Nat :=
  let rankKey := h.getRankKey
  let offset := PERF_HASH_OFFSETS.get (rankKey >>> PERF_HASH_ROW_SHIFT)
  let hashKey := (rankKey + offset) % 2 ^ 32
  LOOKUP.get hashKey

/-- src/hand_evaluator/hand.rs:273-284 `evaluate` -/
def evaluate (h : Hand) : Nat :=
  if h.hasFlush then LOOKUP_FLUSH.get h.getFlushKey
  else
    let rankKey := h.getRankKey
    let offset := PERF_HASH_OFFSETS.get (rankKey >>> PERF_HASH_ROW_SHIFT)
    let hashKey := (rankKey + offset) % 2 ^ 32
    LOOKUP.get hashKey

end Hand

/-- The position in `CARD_MAP` read by `get_card_index`; src/hand_evaluator/hand.rs:14-19.
`usize` arithmetic; `card1 = card2 = 0` would underflow. -/
def cardMapIndex (card1 card2 : Nat) : Nat :=
  let c1 := if card1 > card2 then card2 else card1
  let c2 := if card1 > card2 then card1 else card2
  c1 * (101 - c1) / 2 + c2 - 1

/-- src/hand_evaluator/hand.rs:13-21 `get_card_index` -/
def getCardIndex (card1 card2 : Nat) : Nat := Hand.i16AsUsize (CARD_MAP.get (cardMapIndex card1 card2))

/-- src/hand_evaluator/hand.rs:38-85: the straight-draw part of `get_draw` (`rank < 4`).  The masks are shifted left once
per iteration as `u16`, i.e. `(m <<< i) % 2^16` in iteration `i`. -/
def straightDraws (rankMask : Nat) (getBackdoors : Bool) : Nat :=
  (List.range 10).foldl (fun draw i =>
    let oesd := (0b1111 <<< i) % 2 ^ 16
    let bdsd := (0b11111 <<< i) % 2 ^ 16
    let gsd1 := (0b10111 <<< i) % 2 ^ 16
    let gsd2 := (0b11011 <<< i) % 2 ^ 16
    let gsd3 := (0b11101 <<< i) % 2 ^ 16
    let dgsd1 := (0b1011101 <<< i) % 2 ^ 16
    let dgsd2 := (0b11011011 <<< i) % 2 ^ 16
    let draw := if rankMask &&& oesd = oesd then (if i = 0 ∨ i = 9 then draw ||| 2 else draw ||| 1) else draw
    let draw := if getBackdoors then
        (if countOnes (rankMask &&& bdsd) = 3 then
          let check1 := decide (countOnes (rankMask &&& ((bdsd <<< 1) % 2 ^ 16)) > 3)
          let check2 := decide (countOnes (rankMask &&& (bdsd >>> 1)) > 3)
          if !check1 && !check2 then draw ||| 8 else draw
        else draw)
      else draw
    let draw := if rankMask &&& gsd1 = gsd1 ∨ rankMask &&& gsd2 = gsd2 ∨ rankMask &&& gsd3 = gsd3 then draw ||| 2 else draw
    let draw := if rankMask &&& dgsd1 = dgsd1 ∨ rankMask &&& dgsd2 = dgsd2 then draw ||| 4 else draw
    draw) 0

/-- src/hand_evaluator/hand.rs:86-102: the loop of the nut-straight part of `get_draw` (`rank == 4`), from iteration `i` with
`fuel` iterations left. -/
def nutStraight (rankMask boardMask : Nat) : Nat → Nat → Nat
  | 0, _ => 0
  | fuel + 1, mask =>
    if countOnes (boardMask &&& mask) ≥ 3 then
      (if rankMask &&& mask = mask then 16 else 0)
    else nutStraight rankMask boardMask fuel (mask >>> 1)

/-- src/hand_evaluator/hand.rs:114-121 and 135-147: is the player's best card of the suit among the top five ranks the
best one missing on the board? -/
def holdsNutCard (boardSuitMask holeSuitMask : Nat) : Bool :=
  let mask := 0b1111100000000
  let boardMask := boardSuitMask &&& mask
  let holeMask := holeSuitMask &&& mask
  let xorMask := (boardMask ^^^ mask) &&& mask
  leadingZeros 16 xorMask == leadingZeros 16 holeMask

/-- src/hand_evaluator/hand.rs:103-125: the flush-draw part of `get_draw` (`rank < 5`). -/
def flushDraws (holeCards board hand : Hand) (getBackdoors : Bool) : Nat :=
  (List.range 4).foldl (fun draw i =>
    let suitCount := hand.suitCount i
    let draw := if suitCount = 4 then draw ||| 32
      else if suitCount = 3 then (if getBackdoors then draw ||| 64 else draw) else draw
    if suitCount = 4 ∨ (suitCount = 3 ∧ getBackdoors = true) then
      (if holdsNutCard (board.getSuitMask i) (holeCards.getSuitMask i) then draw ||| 128 else draw)
    else draw) 0

/-- src/hand_evaluator/hand.rs:126-148: the made-flush part of `get_draw` (`rank == 5`).  `none` models the panic
(`3 - suit` underflows for `suit = u8::MAX`) when no suit has five cards. -/
def nutFlush (holeCards board hand : Hand) : Option Nat :=
  match (List.range 4).find? (fun i => decide (hand.suitCount i ≥ 5)) with
  | none => none
  | some suit =>
    let mask := 0b1111100000000
    let boardMask := board.getSuitMask suit &&& mask
    let xorMask := (boardMask ^^^ mask) &&& mask
    if xorMask = 0 then some 128
    else if holdsNutCard (board.getSuitMask suit) (holeCards.getSuitMask suit) then some 128
    else some 0

/-- src/hand_evaluator/hand.rs:33-150 `get_draw`; `none` is the panic described at `nutFlush`. -/
def getDraw (holeCards board : Hand) (rank : Nat) : Option Nat :=
  let hand := holeCards + board
  let rankMask := hand.getRankMask
  let getBackdoors := decide (countOnes board.mask < 4)
  let draw := if rank < 4 then straightDraws rankMask getBackdoors else 0
  let draw := if rank = 4 then draw ||| nutStraight rankMask board.getRankMask 10 0b1111100000000 else draw
  let draw := if rank < 5 then draw ||| flushDraws holeCards board hand getBackdoors else draw
  if rank = 5 then (nutFlush holeCards board hand).map (draw ||| ·) else some draw

end Pokers
