import Verif.Proofs.RangeRead
import Verif.Props.Range
/-!
# Arbitrary range texts (C54)

Tokens are read, each as long as possible, as long as each is followed by a comma; the range is the union of these tokens and the rest
of the text is ignored without an error.
-/
namespace Pokers
open Spec

theorem Takes.percent_le {l : List Char} {t : Token} {rest : List Char} (h : Takes l t rest) : t.percent ≤ 100 := by
  unfold Token.percent
  cases hw : t.weight with
  | none => exact le_refl _
  | some ds => exact (h.weight ds hw).2

theorem reads_valid {l tail : List Char} {ts : List Token} (h : Reads l ts tail) : ∀ t ∈ ts, t.shape.Valid ∧ t.percent ≤ 100 := by
  induction h with
  | stop l _ => simp
  | last l t rest ht _ => simpa using ⟨ht.valid, Takes.percent_le ht⟩
  | more l t rest ts tail ht _ ih =>
    intro x hx
    rcases List.mem_cons.1 hx with rfl | hx
    · exact ⟨ht.valid, Takes.percent_le ht⟩
    · exact ih x hx

/-- C54: every text is read somehow. -/
theorem C54_exists (l : List Char) : ∃ ts tail, Reads l ts tail := reads_exists l.length l (le_refl _)

theorem fromString_reads {lower : List Char → List Char} {text tail : List Char} {ts : List Token} {hands : List Combo}
    (hr : text ≠ "random".toList) (h : fromString lower text = .ok hands) (ht : Reads (lower text) ts tail) :
    hands = removeDuplicates (ts.flatMap (fun t => shapeCombos t.percent t.shape)) := by
  unfold fromString at h
  rw [if_neg (show ¬ text = ['r', 'a', 'n', 'd', 'o', 'm'] from hr)] at h
  cases hp : parseLoop (lower text ++ [' ']) ((lower text ++ [' ']).length + 1) 0 [] with
  | error e => simp only [hp, bind, Except.bind] at h; cases h
  | ok res =>
    simp only [hp, bind, Except.bind, pure, Except.pure] at h
    rw [← Except.ok.inj h, parseLoop_reads ht _ 0 [] res (by rw [List.drop_zero]) hp, List.nil_append]

/-- C54: whatever the text is, the range consists of the hands of the tokens that are read, with the weight of the first token that
stands for the hand. -/
theorem C54_meaning {lower : List Char → List Char} {text tail : List Char} {ts : List Token} {hands : List Combo}
    (hr : text ≠ "random".toList) (h : fromString lower text = .ok hands) (ht : Reads (lower text) ts tail) (a b w : Nat) :
    (⟨a, b, w⟩ : Combo) ∈ hands ↔ b < a ∧ a < 52 ∧ HasWeight ts a b w := by
  have hv := reads_valid ht
  rw [fromString_reads hr h ht, mem_removeDuplicates_iff (bytes_of_wf (wf_shapes hv)), find_flatMap_tokens ts (fun t ht => (hv t ht).1)]

/-- C54: a text is read in one way, as far as the meaning goes. -/
theorem C54_unambiguous {l tail tail' : List Char} {ts ts' : List Token} {hands : List Combo} (hr : l ≠ "random".toList)
    (h : fromString id l = .ok hands) (ht : Reads l ts tail) (ht' : Reads l ts' tail') (a b w : Nat) (hab : b < a) (ha : a < 52) :
    HasWeight ts a b w ↔ HasWeight ts' a b w := by
  have h1 := C54_meaning (lower := id) hr h ht a b w
  have h2 := C54_meaning (lower := id) hr h ht' a b w
  rw [h1] at h2
  exact ⟨fun h => (h2.1 ⟨hab, ha, h⟩).2.2, fun h => (h2.2 ⟨hab, ha, h⟩).2.2⟩

/-- C54: a text that does not begin with a token gives the empty range. -/
theorem C54_empty {lower : List Char → List Char} {text : List Char} {hands : List Combo} (hr : text ≠ "random".toList)
    (h : fromString lower text = .ok hands) (hn : ∀ t rest, ¬ Takes (lower text) t rest) : hands = [] := by
  rw [fromString_reads hr h (.stop _ hn)]
  decide +kernel

/-- C54: a text that begins with a token gives a range that contains its hands. -/
theorem C54_first {lower : List Char → List Char} {text rest : List Char} {t : Token} {hands : List Combo}
    (hr : text ≠ "random".toList) (h : fromString lower text = .ok hands) (ht : Takes (lower text) t rest) {a b : Nat} (hab : b < a)
    (ha : a < 52) (hd : t.shape.denotes a b) : (⟨a, b, t.percent⟩ : Combo) ∈ hands := by
  by_cases hc : Begins ',' rest
  · obtain ⟨rest, rfl⟩ := begins_cons hc
    obtain ⟨ts, tail, hts⟩ := C54_exists rest
    rw [C54_meaning hr h (.more _ t rest ts tail ht hts), HasWeight_cons]
    exact ⟨hab, ha, Or.inl ⟨hd, rfl⟩⟩
  · rw [C54_meaning hr h (.last _ t rest ht hc), HasWeight_cons]
    exact ⟨hab, ha, Or.inl ⟨hd, rfl⟩⟩

/-! Findings: no error is reported. -/

/-- `aa-kq` is no token, and gives the empty range. -/
example : fromString id "aa-kq".toList = .ok [] := by decide +kernel
/-- What follows the first bad token is ignored: `77` is lost. -/
example : fromString id "kk-q2,77".toList = .ok [] := by decide +kernel
example : parseLoop "as2s,kk-q2,77 ".toList 20 0 [] = .ok [⟨48, 0, 100⟩] := by decide +kernel
/-- A weight without digits is zero. -/
example : parseLoop "as2s@ ".toList 20 0 [] = .ok [⟨48, 0, 0⟩] := by decide +kernel
/-- A weight above 100 is replaced by 100 and ends the text. -/
example : parseLoop "as2s@101,as3s ".toList 20 0 [] = .ok [⟨48, 0, 100⟩] := by decide +kernel

/-- The text `as2s,kk` is read as two tokens. -/
example : Reads "as2s,kk".toList [⟨.cards 48 0, none⟩, ⟨.plain 11 11 .any, none⟩] [] := by
  have ha : ∀ (c : Char) (d : Char) (l : List Char), c ≠ d → ¬ Begins c (d :: l) := by
    intro c d l h hb
    exact h (Option.some.inj hb).symm
  refine .more _ _ "kk".toList _ _ ⟨by unfold Shape.Valid; decide, (fun ds h => by cases h), by decide, trivial, ?_⟩
    (.last _ _ _ ⟨by unfold Shape.Valid; decide, (fun ds h => by cases h), by decide, ?_, ?_⟩ (fun h => by cases h))
  · exact Or.inl (ha _ _ _ (by decide))
  · exact ⟨(fun _ => ⟨(fun h => by cases h), (fun h => by cases h)⟩), (fun h => by cases h), (fun h => by cases h)⟩
  · exact Or.inl (fun h => by cases h)

end Pokers
