import Verif.Model.Hand
import Verif.Model.Machine
/-!
Model of `src/fastdivide.rs`.  Every arithmetic operation that panics in a debug build (overflow, underflow, oversized shift,
failed assertion) yields `none`.
-/
namespace Pokers

/-- src/fastdivide.rs:93-97 `DividerU64` -/
inductive DividerU64
  | Fast (magic shift : Nat)
  | BitShift (d : Nat)
  | General (magicLow shift : Nat)
deriving DecidableEq, Repr

/-- src/fastdivide.rs:100-104 `libdivide_mullhi_u64` -/
def mullhi (x y : Nat) : Option Nat := do
  let p ← fits 128 (x * y)
  let h ← shrC 128 p 64
  pure (h % 2 ^ 64)

/-- src/fastdivide.rs:108-111 `floor_log2` -/
def floorLog2 (n : Nat) : Option Nat := do
  assertC (n != 0)
  subC 63 (leadingZeros 64 n)

/-- `u64::is_power_of_two` (core library: exactly one bit is set) (src/fastdivide.rs:118, 126) -/
def isPowerOfTwo (n : Nat) : Bool := countOnes n == 1

namespace DividerU64

/-- src/fastdivide.rs:114-123 `power_of_2_division` -/
def powerOf2Division (divisor : Nat) : Option (Option DividerU64) :=
  if divisor = 0 then some none
  else if isPowerOfTwo divisor then do
    let l ← floorLog2 divisor
    pure (some (BitShift l))
  else some none

/-- src/fastdivide.rs:125-145 `fast_path` -/
def fastPath (divisor : Nat) : Option (Option DividerU64) :=
  if isPowerOfTwo divisor then some none
  else do
    let l ← floorLog2 divisor
    let s ← fits 8 (l + 64)
    let u ← shlC 128 1 s
    let proposed ← divC u divisor
    let prod ← fits 128 (proposed * divisor)
    let rem128 ← subC u prod
    let reminder := rem128 % 2 ^ 64
    assertC (decide (reminder > 0 ∧ reminder < divisor))
    let e ← subC divisor reminder
    let lim ← shlC 64 1 l
    if e ≥ lim then pure none
    else do
      let magic ← fits 64 (proposed % 2 ^ 64 + 1)
      pure (some (Fast magic l))

/-- src/fastdivide.rs:147-158 `general_path` -/
def generalPath (divisor : Nat) : Option DividerU64 := do
  let p ← subC 64 (leadingZeros 64 divisor)
  let s ← fits 8 (63 + p)
  let e ← shlC 128 1 s
  let ed ← subC e divisor
  let num ← fits 128 (e + ed)
  let quo ← divC num divisor
  let m ← fits 128 (2 + quo)
  let shift ← subC p 1
  pure (General (m % 2 ^ 64) shift)

/-- src/fastdivide.rs:160-165 `divide_by` -/
def divideBy (divisor : Nat) : Option DividerU64 := do
  assertC (decide (divisor > 0))
  match ← powerOf2Division divisor with
  | some d => pure d
  | none =>
    match ← fastPath divisor with
    | some d => pure d
    | none => generalPath divisor

/-- src/fastdivide.rs:168-184 `divide` -/
def divide (d : DividerU64) (n : Nat) : Option Nat :=
  match d with
  | Fast magic shift => do
    let h ← mullhi magic n
    shrC 64 h shift
  | BitShift d => shrC 64 n d
  | General magicLow shift => do
    let q ← mullhi magicLow n
    let nq ← subC n q
    let half ← shrC 64 nq 1
    let t := (half + q) % 2 ^ 64
    shrC 64 t shift

end DividerU64
end Pokers
