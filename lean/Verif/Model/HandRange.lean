import Verif.Model.Constants
/-!
Model of `src/hand_range.rs` (lines 1-591).

* Strings are lists of characters.
* Unicode lower-casing (`str::to_lowercase`) is a parameter `lower : List Char → List Char` of the functions that use it; theorems
  about all inputs hold for every such function, theorems about specific texts use that ASCII texts are lower-cased letter by letter.
* `&mut usize` cursors and other `&mut` parameters are returned.
* A panic is an `Except` error.  Arithmetic panics are those of the debug build.
-/
namespace Pokers

/-- Reasons for a panic.  `diverge` is no Rust panic: it is returned when the fuel of a loop runs out (theorem `C17_total` shows that
this never happens). (src/hand_range.rs:130-580) -/
inductive Panic
  | index
  | overflow
  | diverge
deriving DecidableEq, Repr

/-- src/hand_range.rs:19 `struct Combo` (`c1`, `c2`, `w` are the fields `.0`, `.1`, `.2`) -/
structure Combo where
  c1 : Nat
  c2 : Nat
  w : Nat
deriving DecidableEq, Repr

namespace Combo

/-- src/hand_range.rs:42-59 `Ord::cmp` -/
def cmp (a b : Combo) : Ordering :=
  if a.c1 >>> 2 ≠ b.c1 >>> 2 then compare (a.c1 >>> 2) (b.c1 >>> 2)
  else if a.c2 >>> 2 ≠ b.c2 >>> 2 then compare (a.c2 >>> 2) (b.c2 >>> 2)
  else if a.c1 &&& 3 ≠ b.c1 &&& 3 then compare (a.c1 &&& 3) (b.c1 &&& 3)
  else compare (a.c2 &&& 3) (b.c2 &&& 3)

/-- src/hand_range.rs:67-73 `PartialEq::eq` -/
def eq (a b : Combo) : Bool :=
  ((a.c1 <<< 8) % 2 ^ 16 ||| a.c2) == ((b.c1 <<< 8) % 2 ^ 16 ||| b.c2)

/-- src/hand_range.rs:21-40 `Display::fmt`; `none` if a card is not below 52 (index panic). -/
def display (a : Combo) : Option (List Char) := do
  let x ← RANK_TO_CHAR[a.c1 >>> 2]?
  let y ← SUIT_TO_CHAR[a.c1 &&& 3]?
  let z ← RANK_TO_CHAR[a.c2 >>> 2]?
  let t ← SUIT_TO_CHAR[a.c2 &&& 3]?
  pure [x, y, z, t]

end Combo

/-- src/hand_range.rs:501-518 `char_to_rank` -/
def charToRank (c : Char) : Nat :=
  if c = 'a' then 12 else if c = 'k' then 11 else if c = 'q' then 10 else if c = 'j' then 9 else if c = 't' then 8
  else if c = '9' then 7 else if c = '8' then 6 else if c = '7' then 5 else if c = '6' then 4 else if c = '5' then 3
  else if c = '4' then 2 else if c = '3' then 1 else if c = '2' then 0 else 255

/-- src/hand_range.rs:528-536 `char_to_suit` -/
def charToSuit (c : Char) : Nat :=
  if c = 's' then 0 else if c = 'h' then 1 else if c = 'c' then 2 else if c = 'd' then 3 else 255

/-- `char::to_digit(10)` (core library) (src/hand_range.rs:222) -/
def toDigit (c : Char) : Option Nat := if '0' ≤ c ∧ c ≤ '9' then some (c.toNat - '0'.toNat) else none

/-- Indexing `self.char_vec[i]`. (src/hand_range.rs:222, 243, 252, 261) -/
def charAt (cv : List Char) (i : Nat) : Except Panic Char :=
  match cv[i]? with
  | some c => .ok c
  | none => .error .index

/-- src/hand_range.rs:242-249 `parse_char` -/
def parseChar (cv : List Char) (i : Nat) (c : Char) : Except Panic (Bool × Nat) := do
  let d ← charAt cv i
  if d = c then pure (true, i + 1) else pure (false, i)

/-- src/hand_range.rs:251-258 `parse_rank`; returns success, cursor, rank. -/
def parseRank (cv : List Char) (i : Nat) : Except Panic (Bool × Nat × Nat) := do
  let d ← charAt cv i
  let rank := charToRank d
  if rank = 255 then pure (false, i, rank) else pure (true, i + 1, rank)

/-- src/hand_range.rs:260-267 `parse_suit`; returns success, cursor, suit. -/
def parseSuit (cv : List Char) (i : Nat) : Except Panic (Bool × Nat × Nat) := do
  let d ← charAt cv i
  let suit := charToSuit d
  if suit = 255 then pure (false, i, suit) else pure (true, i + 1, suit)

/-- src/hand_range.rs:221-239, the loop of `parse_weight`.  `number` is a `u32`. -/
def parseWeightLoop (cv : List Char) (backtrack : Nat) (weight : Nat) : Nat → Nat → Nat → Except Panic (Bool × Nat × Nat)
  | 0, _, _ => .error .diverge
  | fuel + 1, i, number => do
    let d ← charAt cv i
    match toDigit d with
    | some num =>
      if number * 10 < 2 ^ 32 then
        if number * 10 + num < 2 ^ 32 then parseWeightLoop cv backtrack weight fuel (i + 1) (number * 10 + num)
        else .error .overflow
      else .error .overflow
    | none =>
      if number > 100 then .ok (false, backtrack, weight)
      else .ok (true, i, number % 2 ^ 8)

/-- src/hand_range.rs:218-240 `parse_weight`; returns success, cursor, weight. -/
def parseWeight (cv : List Char) (i : Nat) (weight : Nat) : Except Panic (Bool × Nat × Nat) :=
  parseWeightLoop cv i weight (cv.length + 1) i 0

/-- src/hand_range.rs:181-183 = 194-196 = 203-205 = 208-210: an optional `@` with a weight; the Boolean result of `parse_weight` is
ignored.  Returns cursor and weight. -/
def parseAtWeight (cv : List Char) (i : Nat) (weight : Nat) : Except Panic (Nat × Nat) := do
  let (ok, i) ← parseChar cv i '@'
  if ok then do
    let (_, i, weight) ← parseWeight cv i weight
    pure (i, weight)
  else pure (i, weight)

/-- src/hand_range.rs:269-297 `parse_combos_dash`; returns success, cursor, `rank3`, `rank4` (`suited` and `offsuited` are not changed
by the code).  On failure the caller resets the cursor, so `i` is returned as it is. -/
def parseCombosDash (cv : List Char) (rank1 rank2 : Nat) (suited offsuited : Bool) (i : Nat) :
    Except Panic (Bool × Nat × Nat × Nat) := do
  let (ok, i, rank3) ← parseRank cv i
  if !ok then pure (false, i, rank3, 255) else do
  let (ok, i, rank4) ← parseRank cv i
  if !ok then pure (false, i, rank3, rank4) else do
  let (isO, i) ← parseChar cv i 'o'
  if isO && offsuited != true then pure (false, i, rank3, rank4) else
  if isO && suited then pure (false, i, rank3, rank4) else do
  let (isS, i) ← parseChar cv i 's'
  if isS && suited != true then pure (false, i, rank3, rank4) else
  if isS && offsuited then pure (false, i, rank3, rank4) else
  if rank1 = rank2 ∧ rank3 ≠ rank4 then pure (false, i, rank3, rank4) else
  if rank1 ≠ rank2 ∧ rank3 = rank4 then pure (false, i, rank3, rank4) else
  if rank1 = rank2 ∧ rank3 = rank4 then pure (true, i, rank3, rank4) else
  if rank1 ≠ rank3 ∧ rank1 ≠ rank4 ∧ rank2 ≠ rank3 ∧ rank2 ≠ rank4 then pure (false, i, rank3, rank4) else
  pure (true, i, rank3, rank4)

/-- src/hand_range.rs:302-320 `add_combo` -/
def addCombo (hands : List Combo) (c1 c2 weight : Nat) : List Combo :=
  if c1 > 51 ∨ c2 > 51 then hands
  else if c1 = c2 then hands
  else if c1 >>> 2 < c2 >>> 2 ∨ (c1 >>> 2 = c2 >>> 2 ∧ (c1 &&& 3) < (c2 &&& 3)) then hands ++ [⟨c2, c1, weight⟩]
  else hands ++ [⟨c1, c2, weight⟩]

/-- src/hand_range.rs:392-410 `add_combos`.  `4 * rank + suit` is `u8` arithmetic: ranks are below 13 at all calls, so it does not
overflow (see `C17_ranks`). -/
def addCombos (hands : List Combo) (rank1 rank2 : Nat) (suited offsuited : Bool) (weight : Nat) : List Combo :=
  let hands := if suited ∧ rank1 ≠ rank2 then
      (List.range 4).foldl (fun hands suit => addCombo hands (4 * rank1 + suit) (4 * rank2 + suit) weight) hands
    else hands
  if offsuited then
    (List.range 4).foldl (fun hands suit1 =>
      (List.range' (suit1 + 1) (4 - (suit1 + 1))).foldl (fun hands suit2 =>
        let hands := addCombo hands (4 * rank1 + suit1) (4 * rank2 + suit2) weight
        if rank1 ≠ rank2 then addCombo hands (4 * rank1 + suit2) (4 * rank2 + suit1) weight else hands) hands) hands
  else hands

/-- Rust range `a..b` (src/hand_range.rs:328, 333) -/
def rangeEx (a b : Nat) : List Nat := List.range' a (b - a)
/-- Rust range `a..=b` (src/hand_range.rs:341-381) -/
def rangeIn (a b : Nat) : List Nat := List.range' a (b + 1 - a)

/-- src/hand_range.rs:325-337 `add_combos_plus` -/
def addCombosPlus (hands : List Combo) (rank1 rank2 : Nat) (suited offsuited : Bool) (weight : Nat) : List Combo :=
  if rank1 = rank2 then
    (rangeEx rank1 13).foldl (fun hands r => addCombos hands r r suited offsuited weight) hands
  else
    (rangeEx rank2 rank1).foldl (fun hands r => addCombos hands rank1 r suited offsuited weight) hands

/-- src/hand_range.rs:339-387 `add_combos_dash` -/
def addCombosDash (hands : List Combo) (rank1 rank2 rank3 rank4 : Nat) (suited offsuited : Bool) (weight : Nat) : List Combo :=
  if rank1 = rank2 then
    (rangeIn rank3 rank1).foldl (fun hands r => addCombos hands r r suited offsuited weight) hands
  else if rank1 = rank3 then
    if rank2 > rank4 then
      (rangeIn rank4 rank2).foldl (fun hands r => addCombos hands rank1 r suited offsuited weight) hands
    else
      (rangeIn rank2 rank4).foldl (fun hands r => addCombos hands rank1 r suited offsuited weight) hands
  else if rank1 = rank4 then
    if rank2 > rank3 then
      (rangeIn rank3 rank2).foldl (fun hands r => addCombos hands rank1 r suited offsuited weight) hands
    else
      (rangeIn rank2 rank3).foldl (fun hands r => addCombos hands rank1 r suited offsuited weight) hands
  else if rank2 = rank3 then
    if rank1 > rank4 then
      (rangeIn rank4 rank1).foldl (fun hands r => addCombos hands rank2 r suited offsuited weight) hands
    else
      (rangeIn rank1 rank4).foldl (fun hands r => addCombos hands rank2 r suited offsuited weight) hands
  else if rank2 = rank4 then
    if rank1 > rank3 then
      (rangeIn rank3 rank1).foldl (fun hands r => addCombos hands rank2 r suited offsuited weight) hands
    else
      (rangeIn rank1 rank3).foldl (fun hands r => addCombos hands rank2 r suited offsuited weight) hands
  else hands

/-- src/hand_range.rs:186-192: the optional letter `o` or `s`; returns `suited`, `offsuited` and the cursor. -/
def parseSuffix (cv : List Char) (i : Nat) : Except Panic (Bool × Bool × Nat) := do
  let (isO, i) ← parseChar cv i 'o'
  if isO then pure (false, true, i)
  else do
    let (isS, i) ← parseChar cv i 's'
    if isS then pure (true, false, i) else pure (true, true, i)

/-- src/hand_range.rs:150-216 `parse_hand`; returns success, cursor, hands. -/
def parseHand (cv : List Char) (backtrack : Nat) (hands : List Combo) : Except Panic (Bool × Nat × List Combo) := do
  let (ok, i, r1) ← parseRank cv backtrack
  if !ok then pure (false, i, hands) else do
  let (explicitSuits, i, s1) ← parseSuit cv i
  let (ok, i, r2) ← parseRank cv i
  if !ok then pure (false, backtrack, hands) else do
  if explicitSuits then do
    let (ok, i, s2) ← parseSuit cv i
    if !ok then pure (false, backtrack, hands) else do
    let c1 := 4 * r1 + s1
    let c2 := 4 * r2 + s2
    if c1 = c2 then pure (false, backtrack, hands) else do
    let (i, weight) ← parseAtWeight cv i 100
    pure (true, i, addCombo hands c1 c2 weight)
  else do
    let (suited, offsuited, i) ← parseSuffix cv i
    let (plus, i) ← parseChar cv i '+'
    if plus then do
      let (i, weight) ← parseAtWeight cv i 100
      pure (true, i, addCombosPlus hands r1 r2 suited offsuited weight)
    else do
    let (dash, i) ← parseChar cv i '-'
    if dash then do
      let (ok, i, r3, r4) ← parseCombosDash cv r1 r2 suited offsuited i
      if !ok then pure (false, backtrack, hands) else do
      let (i, weight) ← parseAtWeight cv i 100
      pure (true, i, addCombosDash hands r1 r2 r3 r4 suited offsuited weight)
    else do
      let (i, weight) ← parseAtWeight cv i 100
      pure (true, i, addCombos hands r1 r2 suited offsuited weight)

/-- src/hand_range.rs:143, the loop `while range.parse_hand(&mut i) && range.parse_char(&mut i, ',') {}` -/
def parseLoop (cv : List Char) : Nat → Nat → List Combo → Except Panic (List Combo)
  | 0, _, _ => .error .diverge
  | fuel + 1, i, hands => do
    let (ok, i, hands) ← parseHand cv i hands
    if ok then do
      let (ok, i) ← parseChar cv i ','
      if ok then parseLoop cv fuel i hands else pure hands
    else pure hands

/-- `Vec::dedup` (core library): removes all but the first of consecutive equal elements. (src/hand_range.rs:430) -/
def dedupFrom (last : Combo) : List Combo → List Combo
  | [] => []
  | x :: xs => if x.eq last then dedupFrom last xs else x :: dedupFrom x xs

/-- `Vec::dedup` (core library). (src/hand_range.rs:430) -/
def dedup : List Combo → List Combo
  | [] => []
  | x :: xs => x :: dedupFrom x xs

/-- src/hand_range.rs:426-431 `remove_duplicates`.  `slice::sort` is a stable sort, like `List.mergeSort`. -/
def removeDuplicates (hands : List Combo) : List Combo :=
  dedup (hands.mergeSort (fun a b => a.cmp b != .gt))

/-- src/hand_range.rs:415-421 `add_all` -/
def addAll : List Combo :=
  (List.range CARD_COUNT).foldl (fun hands c1 =>
    (List.range c1).foldl (fun hands c2 => addCombo hands c1 c2 100) hands) []

/-- src/hand_range.rs:134-148 `from_string` (field `hands`; `char_vec` is only used during parsing) -/
def fromString (lower : List Char → List Char) (text : List Char) : Except Panic (List Combo) :=
  if text = ['r', 'a', 'n', 'd', 'o', 'm'] then .ok addAll
  else do
    let cv := lower text ++ [' ']
    let hands ← parseLoop cv (cv.length + 1) 0 []
    pure (removeDuplicates hands)

/-- src/hand_range.rs:109-114 `from_strings` -/
def fromStrings (lower : List Char → List Char) (arr : List (List Char)) : Except Panic (List (List Combo)) :=
  arr.mapM (fromString lower)

/-- src/hand_range.rs:117-120 `remove_conflicting_combos`.  The shift amounts of real ranges are below 52. -/
def removeConflictingCombos (hands : List Combo) (boardMask deadMask : Nat) : List Combo :=
  hands.filter (fun x => (((1 <<< x.c1) ||| (1 <<< x.c2)) &&& (boardMask ||| deadMask)) == 0)

/-- src/hand_range.rs:550-569 `get_card_mask`, the loop over pairs of characters; `none` is the early `return 0`. -/
def cardMaskLoop : List Char → Nat → Nat
  | r :: s :: rest, cards =>
    let rank := charToRank r
    let suit := charToSuit s
    if rank = 255 ∨ suit = 255 then 0
    else cardMaskLoop rest (cards ||| (1 <<< (4 * rank + suit)))
  | _, cards => cards

/-- src/hand_range.rs:550-569 `get_card_mask` -/
def getCardMask (lower : List Char → List Char) (text : List Char) : Nat :=
  let cv := lower text
  if cv.length % 2 ≠ 0 then 0 else cardMaskLoop cv 0

/-- src/hand_range.rs:572-583 `mask_to_string` -/
def maskToString (cardMask : Nat) : List Char :=
  (List.range CARD_COUNT).foldl (fun s i =>
    if (1 <<< i) &&& cardMask ≠ 0 then s ++ [RANK_TO_CHAR.getD (i >>> 2) '?', SUIT_TO_CHAR.getD (i &&& 3) '?'] else s) []

/-- src/hand_range.rs:586-591 `card_to_string`; `none` if the card is not below 52 (index panic). -/
def cardToString (card : Nat) : Option (List Char) := do
  let x ← RANK_TO_CHAR[card >>> 2]?
  let y ← SUIT_TO_CHAR[card &&& 3]?
  pure [x, y]

/-- src/hand_range.rs:485-491 `hole_to_string` (never fails) -/
def holeToString (hole : Nat × Nat) : List Char := maskToString ((1 <<< hole.1) ||| (1 <<< hole.2))

/-- src/hand_range.rs:480-482 `holes_to_strings` (never fails) -/
def holesToStrings (holes : List (Nat × Nat)) : List (List Char) := holes.map holeToString

/-- Outcome of the functions returning `Result<_, String>`: a panic, an error message or a value. (src/hand_range.rs:436-475) -/
inductive Outcome (α : Type)
  | panic (p : Panic)
  | err
  | ok (a : α)
deriving DecidableEq, Repr

/-- Sequencing (`?`). (src/hand_range.rs:439-441, 459, 470) -/
def Outcome.andThen {α β : Type} : Outcome α → (α → Outcome β) → Outcome β
  | .panic p, _ => .panic p
  | .err, _ => .err
  | .ok a, f => f a

/-- src/hand_range.rs:457-465 `card_from_chars`; returns the card and the remaining characters.  `4 * rank + suit` is checked `u8`
arithmetic. -/
def cardFromChars : List Char → Outcome (Nat × List Char)
  | r :: s :: rest =>
    let rank := charToRank r.toLower
    let suit := charToSuit s
    if 4 * rank < 2 ^ 8 ∧ 4 * rank + suit < 2 ^ 8 then .ok (4 * rank + suit, rest) else .panic .overflow
  | _ => .err

/-- src/hand_range.rs:468-477 `card_from_str` -/
def cardFromStr (s : List Char) : Outcome Nat :=
  (cardFromChars s).andThen (fun p => if p.2.isEmpty then .ok p.1 else .err)

/-- src/hand_range.rs:435-454 `flop_from_str`.  `ws` is `char::is_whitespace`. -/
def flopFromStr (ws : Char → Bool) (s : List Char) : Outcome (List Nat) :=
  (cardFromChars s).andThen fun p0 =>
  (cardFromChars (p0.2.dropWhile ws)).andThen fun p1 =>
  (cardFromChars (p1.2.dropWhile ws)).andThen fun p2 =>
  if !p2.2.isEmpty then .err
  else
    let result := [p0.1, p1.1, p2.1].mergeSort (· ≤ ·)
    if result.getD 0 0 = result.getD 1 0 ∨ result.getD 1 0 = result.getD 2 0 ∨ result.getD 0 0 = result.getD 2 0 then .err
    else .ok result

end Pokers
