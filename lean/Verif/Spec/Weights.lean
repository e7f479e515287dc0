import Verif.Spec.Reading
/-! Texts whose weights are replaced by their remainders modulo 2^32. -/
namespace Spec

/-- The second text is the first one, but every number following a `@` is replaced by its remainder modulo 2^32 (written in any way,
for instance with leading zeros). -/
inductive Reduced : List Char → List Char → Prop
  | nil : Reduced [] []
  | other {c : Char} {l l' : List Char} : c ≠ '@' → Reduced l l' → Reduced (c :: l) (c :: l')
  | weight {ds ds' : List Nat} {l l' : List Char} : (∀ d ∈ ds, d < 10) → (∀ d ∈ ds', d < 10) →
      decimal ds' = decimal ds % 2 ^ 32 → (ds' = [] ↔ ds = []) → ¬ BeginsDigit l → ¬ BeginsDigit l' → Reduced l l' →
      Reduced ('@' :: (ds.map digitChar ++ l)) ('@' :: (ds'.map digitChar ++ l'))

end Spec
