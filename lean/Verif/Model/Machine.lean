/-!
Checked machine arithmetic, used where a debug build of the crate would panic: `none` is a panic.
-/
namespace Pokers

/-- A result of width `w` bits: panics on overflow. (src/equity_calculator/simulator.rs:687-1302) -/
def fits (w x : Nat) : Option Nat := if x < 2 ^ w then some x else none

/-- Checked subtraction: panics on underflow.
(src/fastdivide.rs:110, 132-134, 149-156, 180; src/equity_calculator/simulator.rs:976-990, 1055) -/
def subC (a b : Nat) : Option Nat := if b ≤ a then some (a - b) else none

/-- `assert!`. (src/fastdivide.rs:109, 133, 161) -/
def assertC (b : Bool) : Option Unit := if b then some () else none

/-- A shift by `k` of a `w`-bit value: panics unless `k < w`; bits shifted out are lost.
(src/fastdivide.rs:130, 138, 152; src/equity_calculator/simulator.rs:331-490, 1198-1243) -/
def shlC (w x k : Nat) : Option Nat := if k < w then some ((x <<< k) % 2 ^ w) else none

/-- Shift right of a `w`-bit value. (src/fastdivide.rs:103, 173, 175, 180-181) -/
def shrC (w x k : Nat) : Option Nat := if k < w then some (x >>> k) else none

/-- Division: panics on zero. (src/fastdivide.rs:131, 153; src/equity_calculator/simulator.rs:331-490, 703, 987) -/
def divC (a b : Nat) : Option Nat := if b = 0 then none else some (a / b)

end Pokers
