/-!
Representation of the big constant arrays of the crate.  A Rust `[u16; N]` is stored as a balanced tree of big
`Nat` literals (chunks), each holding `2 ^ logPer` entries of `bits` bits.
-/
namespace Pokers

/-- A list of chunk literals, as a search tree on the chunk number: numbers below `m` are on the left. -/
inductive Chunks where
  | leaf (n : Nat)
  | node (m : Nat) (l r : Chunks)

/-- The chunk with number `i`. -/
def Chunks.get : Chunks → Nat → Nat
  | .leaf n, _ => n
  | .node m l r, i => cond (Nat.blt i m) (l.get i) (r.get i)

/-- A constant array of `len` entries of `bits` bits, `2 ^ logPer` of them in each chunk. -/
structure PackedArray where
  len : Nat
  bits : Nat
  logPer : Nat
  chunks : Chunks

/-- Entry `i`.  Meaningful only for `i < len`; the in-bounds theorems (C06) show that no other read happens. -/
def PackedArray.get (a : PackedArray) (i : Nat) : Nat :=
  (a.chunks.get (i >>> a.logPer) >>> (a.bits * (i % 2 ^ a.logPer))) % 2 ^ a.bits

end Pokers
