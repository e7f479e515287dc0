import Verif.Model.FastDivide
/-!
Small parts of the code that the calculations do not use.
-/
namespace Pokers

/-- src/fastdivide.rs:187-194 `impl Div<DividerU64> for u64` -/
def divOp (n : Nat) (denom : DividerU64) : Option Nat := denom.divide n

/-- src/equity_calculator/simulator.rs:491-495 `struct HandWithIndex`, with the derived `PartialEq` -/
structure HandWithIndex where
  cards : Nat × Nat × Nat
  playerIdx : Nat
deriving DecidableEq, Repr

namespace HandWithIndex

/-- src/equity_calculator/simulator.rs:497-504 `HandWithIndex::default` -/
def default : HandWithIndex := { cards := (52, 52, 100), playerIdx := 0 }

/-- src/equity_calculator/simulator.rs:506-519 `Ord::cmp` -/
def cmp (a b : HandWithIndex) : Ordering :=
  if a.cards.1 >>> 2 ≠ b.cards.1 >>> 2 then compare (a.cards.1 >>> 2) (b.cards.1 >>> 2)
  else if a.cards.2.1 >>> 2 ≠ b.cards.2.1 >>> 2 then compare (a.cards.2.1 >>> 2) (b.cards.2.1 >>> 2)
  else if a.cards.1 &&& 3 ≠ b.cards.1 &&& 3 then compare (a.cards.1 &&& 3) (b.cards.1 &&& 3)
  else compare (a.cards.2.1 &&& 3) (b.cards.2.1 &&& 3)

/-- src/equity_calculator/simulator.rs:521-525 `PartialOrd::partial_cmp` -/
def partialCmp (a b : HandWithIndex) : Option Ordering := some (a.cmp b)

end HandWithIndex
end Pokers
