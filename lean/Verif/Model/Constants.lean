/-!
Model of `src/constants.rs`.
-/
namespace Pokers

/-- src/constants.rs:2 `CARD_COUNT` -/
def CARD_COUNT : Nat := 52
/-- src/constants.rs:6 `RANK_COUNT` -/
def RANK_COUNT : Nat := 13
/-- src/constants.rs:7 `SUIT_COUNT` -/
def SUIT_COUNT : Nat := 4

/-- src/constants.rs:10-12 `RANK_TO_CHAR` -/
def RANK_TO_CHAR : List Char := ['2', '3', '4', '5', '6', '7', '8', '9', 'T', 'J', 'Q', 'K', 'A']

/-- src/constants.rs:15 `SUIT_TO_CHAR` -/
def SUIT_TO_CHAR : List Char := ['s', 'h', 'c', 'd']

/-- src/constants.rs:21-24 `RANKS` -/
def RANKS : List Nat :=
  [8192, 32769, 69632, 237568, 593920, 1531909, 3563520, 4300819, 4685870, 4690024, 4767972,
   4780561, 4801683]

/-- src/constants.rs:29 `PERF_HASH_ROW_SHIFT` -/
def PERF_HASH_ROW_SHIFT : Nat := 12
/-- src/constants.rs:31 `CARD_COUNT_SHIFT` -/
def CARD_COUNT_SHIFT : Nat := 32
/-- src/constants.rs:32 `SUITS_SHIFT` -/
def SUITS_SHIFT : Nat := 48
/-- src/constants.rs:33 `FLUSH_CHECK_MASK64` -/
def FLUSH_CHECK_MASK64 : Nat := 0x8888 <<< SUITS_SHIFT
/-- src/constants.rs:34 `FLUSH_CHECK_MASK32` -/
def FLUSH_CHECK_MASK32 : Nat := 0x8888 <<< (SUITS_SHIFT - 32)
/-- src/constants.rs:36 `HAND_CATEGORY_OFFSET` -/
def HAND_CATEGORY_OFFSET : Nat := 0x1000

end Pokers
