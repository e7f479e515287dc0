import Verif.Model.Hand
/-!
The public functions of `src/hand_evaluator/hand.rs` on arbitrary arguments.

`Hand` has public fields and the functions take any `u8`, so a caller can pass values that stand for no card and no hand.
`Model/Hand.lean` describes the functions on real cards; here every operation says what it does outside that domain, in each
build:
* a debug build panics when `+`, `-` or `*` leaves the range of its type and when a shift is not smaller than the width;
* a release build wraps the result and takes the shift modulo the width;
* `get_unchecked` outside the array is undefined behaviour in both.
-/
namespace Pokers

/-- How the crate is compiled: with or without overflow checks. (Cargo.toml sets no profiles) -/
inductive Profile | debug | release
deriving DecidableEq

/-- What a call does: it returns a value, panics, or has undefined behaviour. (src/hand_evaluator/hand.rs:11-341) -/
inductive Ran (α : Type) | ok (a : α) | panic | undefined
deriving DecidableEq

namespace Ran

/-- Statements run one after the other. (src/hand_evaluator/hand.rs:11-341) -/
def andThen {α β : Type} : Ran α → (α → Ran β) → Ran β
  | .ok a, f => f a
  | .panic, _ => .panic
  | .undefined, _ => .undefined

instance : Monad Ran where
  pure := .ok
  bind := andThen

end Ran

/-- `a + b` on a type of `w` bits. (src/hand_evaluator/hand.rs:19, 258, 316-333) -/
def addB (m : Profile) (w a b : Nat) : Ran Nat :=
  if a + b < 2 ^ w then .ok (a + b) else match m with
    | .debug => .panic
    | .release => .ok ((a + b) % 2 ^ w)

/-- `a - b` on a type of `w` bits. (src/hand_evaluator/hand.rs:19) -/
def subB (m : Profile) (w a b : Nat) : Ran Nat :=
  if b ≤ a then .ok (a - b) else match m with
    | .debug => .panic
    | .release => .ok (a + 2 ^ w - b)

/-- `a * b` on a type of `w` bits. (src/hand_evaluator/hand.rs:19) -/
def mulB (m : Profile) (w a b : Nat) : Ran Nat :=
  if a * b < 2 ^ w then .ok (a * b) else match m with
    | .debug => .panic
    | .release => .ok (a * b % 2 ^ w)

/-- The amount by which a value of `w` bits is shifted by `<< s` and `>> s`. (src/hand_evaluator/hand.rs:184, 202, 210, 239, 252, 259) -/
def shiftB (m : Profile) (w s : Nat) : Ran Nat :=
  if s < w then .ok s else match m with
    | .debug => .panic
    | .release => .ok (s % w)

/-- `get_unchecked`. (src/hand_evaluator/hand.rs:20, 270, 277-291) -/
def readB (t : PackedArray) (i : Nat) : Ran Nat := if i < t.len then .ok (t.get i) else .undefined

/-- src/hand_evaluator/hand.rs:13-21 `get_card_index`, for any two `u8` -/
def getCardIndexB (m : Profile) (card1 card2 : Nat) : Ran Nat := do
  let c1 := if card1 > card2 then card2 else card1
  let c2 := if card1 > card2 then card1 else card2
  let x ← subB m 64 101 c1
  let y ← mulB m 64 c1 x
  let z ← addB m 64 (y / 2) c2
  let index ← subB m 64 z 1
  let v ← readB CARD_MAP index
  pure (Hand.i16AsUsize v)

namespace Hand

/-- src/hand_evaluator/hand.rs:316-325 `Add::add` and 327-332 `AddAssign::add_assign`, for any two hands -/
def addB (m : Profile) (a b : Hand) : Ran Hand := do
  let key ← Pokers.addB m 64 a.key b.key
  pure { key := key, mask := a.mask ||| b.mask }

/-- The bounds-checked read `CARDS[c]`. (src/hand_evaluator/hand.rs:167, 175) -/
def cardB (c : Nat) : Ran Hand := if c < 52 then .ok (CARDS c) else .panic

/-- src/hand_evaluator/hand.rs:165-168 `from_hole_cards`, for any two `u8` -/
def fromHoleCardsB (m : Profile) (c1 c2 : Nat) : Ran Hand := do
  let a ← cardB c1
  let b ← cardB c2
  addB m a b

/-- src/hand_evaluator/hand.rs:170-179 `from_bit_mask`, for any `u64` -/
def fromBitMaskB (m : Profile) (mask : Nat) : Ran Hand :=
  (List.range CARD_COUNT).foldlM
    (fun board c => if mask &&& (1 <<< c) ≠ 0 then addB m board (CARDS c) else pure board) default

/-- src/hand_evaluator/hand.rs:181-186 `contains`, for any `u8`.  The shift is computed as `u8`: at most `48 + 63`. -/
def containsB (m : Profile) (h : Hand) (card : Nat) : Ran Bool := do
  let s ← shiftB m 64 ((3 - card % 4) * 16 + card / 4)
  pure (h.mask &&& (1 <<< s) != 0)

/-- src/hand_evaluator/hand.rs:198-204 `get_suit_mask`, for any `u8`.  `3 - suit` and `16 * _` are computed as `u8`. -/
def getSuitMaskB (m : Profile) (h : Hand) (suit : Nat) : Ran Nat := do
  let x ← subB m 8 3 suit
  let y ← mulB m 8 16 x
  let s ← shiftB m 64 y
  pure (((h.mask >>> s) &&& 0xFFFF) % 2 ^ 16)

/-- src/hand_evaluator/hand.rs:255-260 `suit_count`, for any `u8`.  The shift is computed as `u8`. -/
def suitCountB (m : Profile) (h : Hand) (suit : Nat) : Ran Int := do
  let x ← mulB m 8 4 suit
  let y ← Pokers.addB m 8 x (SUITS_SHIFT - 32)
  let s ← shiftB m 32 y
  pure ((((h.getCounters >>> s) &&& 0xf : Nat) : Int) - 3)

/-- src/hand_evaluator/hand.rs:262-271 `Hand::get_card_index`, for any hand.  `63 - b` is computed as `u32`. -/
def getCardIndexB (m : Profile) (h : Hand) : Ran Nat := do
  let s := trailingZeros h.mask
  let b ← subB m 32 63 (leadingZeros 64 h.mask)
  let v ← readB MASK_MAP (b ||| (s <<< 6))
  pure (i16AsUsize v)

/-- src/hand_evaluator/hand.rs:286-292 `evaluate_without_flush`, for any hand; nothing in it is checked in either build. -/
def evaluateWithoutFlushB (h : Hand) : Ran Nat := do
  let rankKey := h.getRankKey
  let offset ← readB PERF_HASH_OFFSETS (rankKey >>> PERF_HASH_ROW_SHIFT)
  let hashKey := (rankKey + offset) % 2 ^ 32
  readB LOOKUP hashKey

/-- src/hand_evaluator/hand.rs:273-284 `evaluate`, for any hand -/
def evaluateB (h : Hand) : Ran Nat :=
  if h.hasFlush then readB LOOKUP_FLUSH h.getFlushKey
  else do
    let rankKey := h.getRankKey
    let offset ← readB PERF_HASH_OFFSETS (rankKey >>> PERF_HASH_ROW_SHIFT)
    let hashKey := (rankKey + offset) % 2 ^ 32
    readB LOOKUP hashKey

end Hand

/-- src/hand_evaluator/hand.rs:126-148: the made-flush part of `get_draw`; `suit` stays `u8::MAX` if no suit has five cards -/
def nutFlushB (m : Profile) (holeCards board hand : Hand) : Ran Nat := do
  let suit := ((List.range 4).find? (fun i => decide (hand.suitCount i ≥ 5))).getD 255
  let mask := 0b1111100000000
  let b ← board.getSuitMaskB m suit
  let h ← holeCards.getSuitMaskB m suit
  let boardMask := b &&& mask
  let holeMask := h &&& mask
  let xorMask := (boardMask ^^^ mask) &&& mask
  if xorMask = 0 then pure 128
  else if leadingZeros 16 xorMask = leadingZeros 16 holeMask then pure 128
  else pure 0

/-- src/hand_evaluator/hand.rs:33-150 `get_draw`, for any two hands and any `u8` -/
def getDrawB (m : Profile) (holeCards board : Hand) (rank : Nat) : Ran Nat := do
  let hand ← holeCards.addB m board
  let rankMask := hand.getRankMask
  let getBackdoors := decide (countOnes board.mask < 4)
  let draw := if rank < 4 then straightDraws rankMask getBackdoors else 0
  let draw := if rank = 4 then draw ||| nutStraight rankMask board.getRankMask 10 0b1111100000000 else draw
  let draw := if rank < 5 then draw ||| flushDraws holeCards board hand getBackdoors else draw
  if rank = 5 then do
    let d ← nutFlushB m holeCards board hand
    pure (draw ||| d)
  else pure draw

end Pokers
