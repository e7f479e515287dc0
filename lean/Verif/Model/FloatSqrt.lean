import Mathlib.Data.Nat.Sqrt
import Verif.Model.Float
/-!
The square root of `f64` numbers and the standard deviation of `update_results`.

`f64::sqrt` (src/equity_calculator/simulator.rs:1155-1157) is the square root of IEEE 754: the `f64` number nearest to the exact square
root, `NaN` for negative numbers.
-/
namespace Pokers

/-- The distance of the `f64` numbers around the square root of `v`: if `v` is at least `2 ^ l` and less than `2 ^ (l + 1)`, its square
root is at least `2 ^ (l / 2)` and less than `2 ^ (l / 2 + 1)`, where `l / 2` is rounded down.
(src/equity_calculator/simulator.rs:1157) -/
def sqrtUlp (v : ℚ) : ℚ := 2 ^ max (Int.log 2 v / 2 - 52) (-1074)

/-- The number of these distances in the square root of `v`, rounded to the nearest integer; to the even one if there are two.
(src/equity_calculator/simulator.rs:1157) -/
def sqrtRound (v : ℚ) : Nat :=
  let x := v / sqrtUlp v ^ 2
  let m := Nat.sqrt ⌊x⌋₊
  if x < ((m : ℚ) + 1 / 2) ^ 2 then m else if ((m : ℚ) + 1 / 2) ^ 2 < x then m + 1 else if m % 2 = 0 then m else m + 1

/-- `f64::sqrt`; `none` is `NaN`. (src/equity_calculator/simulator.rs:1155-1158) -/
def fsqrt (v : ℚ) : Option ℚ := if v < 0 then none else some (sqrtRound v * sqrtUlp v)

/-- src/equity_calculator/simulator.rs:1155-1158: the standard deviation, from the value under the square root and the number of
batches -/
def devF (v count : ℚ) : Option ℚ :=
  match fsqrt v with
  | none => none
  | some d => ffdiv d count

/-- src/equity_calculator/simulator.rs:1160: the progress `(1.0 / (stdev / target).powi(2) * 100.0) as u8` in approximate mode, where
`powi(2)` is a rounded product.  (The cast turns NaN into 0 and infinity into 255.) -/
def progF (target : ℚ) (stdev : Option ℚ) : Nat :=
  match stdev with
  | none => 0
  | some d =>
    let q := fl (d / target)
    let sq := fl (q * q)
    if sq = 0 then 255 else castU8 (fl (fl (1 / sq) * 100))

end Pokers
