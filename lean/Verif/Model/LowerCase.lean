import Verif.Model.HandRange
import Mathlib.Data.List.Forall2
/-!
`str::to_lowercase` of the core library, which `src/hand_range.rs` applies to range texts (line 140) and to the text of
`get_card_mask` (line 551), as far as it matters here.

The conversion goes character by character, and a character can become several.  Two characters outside ASCII become characters of
which one is in ASCII: the Kelvin sign U+212A, which becomes `k`, and the I with a dot U+0130, which becomes `i` and the combining dot
U+0307.  All others become characters outside ASCII.  (A capital sigma depends on its neighbours, but its two lower-case forms are
outside ASCII.)
-/
namespace Pokers

/-- U+212A, the Kelvin sign (src/hand_range.rs:140, 551) -/
def kelvin : Char := Char.ofNat 0x212A

/-- U+0130, capital I with a dot (src/hand_range.rs:140, 551) -/
def dottedI : Char := Char.ofNat 0x130

/-- The lower case of a character. (src/hand_range.rs:140, 551) -/
inductive LowerChar : Char → List Char → Prop
  | ascii (c : Char) : c.toNat < 128 → LowerChar c [c.toLower]
  | kelvin : LowerChar kelvin ['k']
  | dotted : LowerChar dottedI ['i', Char.ofNat 0x307]
  | other (c : Char) (out : List Char) : 128 ≤ c.toNat → c ≠ Pokers.kelvin → c ≠ dottedI → out ≠ [] → (∀ x ∈ out, 128 ≤ x.toNat) → LowerChar c out

/-- src/hand_range.rs:140 and 551: what is used of `str::to_lowercase` -/
def UnicodeLower (lower : List Char → List Char) : Prop :=
  ∀ text, ∃ outs, List.Forall₂ LowerChar text outs ∧ lower text = outs.flatten

end Pokers
