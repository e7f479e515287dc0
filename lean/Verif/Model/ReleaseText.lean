import Verif.Model.HandRange
/-!
The text functions of `src/hand_range.rs` in a release build: the `u8` arithmetic of `card_from_chars` and the `u32` arithmetic of
`parse_weight` wrap around instead of panicking.  All other definitions are those of `Verif.Model.HandRange` (indexing is still
checked in a release build; the arithmetic of `usize` cursors stays below the length of the text).
-/
namespace Pokers

/-- src/hand_range.rs:221-239, the loop of `parse_weight` in a release build: `number *= 10; number += num` modulo 2^32. -/
def parseWeightLoopR (cv : List Char) (backtrack : Nat) (weight : Nat) : Nat → Nat → Nat → Except Panic (Bool × Nat × Nat)
  | 0, _, _ => .error .diverge
  | fuel + 1, i, number => do
    let d ← charAt cv i
    match toDigit d with
    | some num => parseWeightLoopR cv backtrack weight fuel (i + 1) ((number * 10 % 2 ^ 32 + num) % 2 ^ 32)
    | none =>
      if number > 100 then .ok (false, backtrack, weight)
      else .ok (true, i, number % 2 ^ 8)

/-- src/hand_range.rs:218-240 `parse_weight` in a release build. -/
def parseWeightR (cv : List Char) (i : Nat) (weight : Nat) : Except Panic (Bool × Nat × Nat) :=
  parseWeightLoopR cv i weight (cv.length + 1) i 0

/-- src/hand_range.rs:181-183 = 194-196 = 203-205 = 208-210 in a release build. -/
def parseAtWeightR (cv : List Char) (i : Nat) (weight : Nat) : Except Panic (Nat × Nat) := do
  let (ok, i) ← parseChar cv i '@'
  if ok then do
    let (_, i, weight) ← parseWeightR cv i weight
    pure (i, weight)
  else pure (i, weight)

/-- src/hand_range.rs:150-216 `parse_hand` in a release build (`4 * r1 + s1` does not wrap: both ranks are below 13). -/
def parseHandR (cv : List Char) (backtrack : Nat) (hands : List Combo) : Except Panic (Bool × Nat × List Combo) := do
  let (ok, i, r1) ← parseRank cv backtrack
  if !ok then pure (false, i, hands) else do
  let (explicitSuits, i, s1) ← parseSuit cv i
  let (ok, i, r2) ← parseRank cv i
  if !ok then pure (false, backtrack, hands) else do
  if explicitSuits then do
    let (ok, i, s2) ← parseSuit cv i
    if !ok then pure (false, backtrack, hands) else do
    let c1 := 4 * r1 + s1
    let c2 := 4 * r2 + s2
    if c1 = c2 then pure (false, backtrack, hands) else do
    let (i, weight) ← parseAtWeightR cv i 100
    pure (true, i, addCombo hands c1 c2 weight)
  else do
    let (suited, offsuited, i) ← parseSuffix cv i
    let (plus, i) ← parseChar cv i '+'
    if plus then do
      let (i, weight) ← parseAtWeightR cv i 100
      pure (true, i, addCombosPlus hands r1 r2 suited offsuited weight)
    else do
    let (dash, i) ← parseChar cv i '-'
    if dash then do
      let (ok, i, r3, r4) ← parseCombosDash cv r1 r2 suited offsuited i
      if !ok then pure (false, backtrack, hands) else do
      let (i, weight) ← parseAtWeightR cv i 100
      pure (true, i, addCombosDash hands r1 r2 r3 r4 suited offsuited weight)
    else do
      let (i, weight) ← parseAtWeightR cv i 100
      pure (true, i, addCombos hands r1 r2 suited offsuited weight)

/-- src/hand_range.rs:143, the loop of `from_string` in a release build. -/
def parseLoopR (cv : List Char) : Nat → Nat → List Combo → Except Panic (List Combo)
  | 0, _, _ => .error .diverge
  | fuel + 1, i, hands => do
    let (ok, i, hands) ← parseHandR cv i hands
    if ok then do
      let (ok, i) ← parseChar cv i ','
      if ok then parseLoopR cv fuel i hands else pure hands
    else pure hands

/-- src/hand_range.rs:134-148 `from_string` in a release build. -/
def fromStringR (lower : List Char → List Char) (text : List Char) : Except Panic (List Combo) :=
  if text = ['r', 'a', 'n', 'd', 'o', 'm'] then .ok addAll
  else do
    let cv := lower text ++ [' ']
    let hands ← parseLoopR cv (cv.length + 1) 0 []
    pure (removeDuplicates hands)

/-- src/hand_range.rs:109-114 `from_strings` in a release build. -/
def fromStringsR (lower : List Char → List Char) (arr : List (List Char)) : Except Panic (List (List Combo)) :=
  arr.mapM (fromStringR lower)

/-- src/hand_range.rs:457-465 `card_from_chars` in a release build: `4 * rank + suit` modulo 2^8. -/
def cardFromCharsR : List Char → Outcome (Nat × List Char)
  | r :: s :: rest => .ok ((4 * charToRank r.toLower % 2 ^ 8 + charToSuit s) % 2 ^ 8, rest)
  | _ => .err

/-- src/hand_range.rs:468-477 `card_from_str` in a release build. -/
def cardFromStrR (s : List Char) : Outcome Nat :=
  (cardFromCharsR s).andThen (fun p => if p.2.isEmpty then .ok p.1 else .err)

/-- src/hand_range.rs:435-454 `flop_from_str` in a release build. -/
def flopFromStrR (ws : Char → Bool) (s : List Char) : Outcome (List Nat) :=
  (cardFromCharsR s).andThen fun p0 =>
  (cardFromCharsR (p0.2.dropWhile ws)).andThen fun p1 =>
  (cardFromCharsR (p1.2.dropWhile ws)).andThen fun p2 =>
  if !p2.2.isEmpty then .err
  else
    let result := [p0.1, p1.1, p2.1].mergeSort (· ≤ ·)
    if result.getD 0 0 = result.getD 1 0 ∨ result.getD 1 0 = result.getD 2 0 ∨ result.getD 0 0 = result.getD 2 0 then .err
    else .ok result

end Pokers
