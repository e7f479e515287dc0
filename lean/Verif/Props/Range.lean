import Verif.Proofs.RangeText
import Verif.Spec.Names
import Verif.Props.Index
/-!
# Range texts and card strings (C14–C24, C47, C50)

`lower` stands for `str::to_lowercase`.  Where the theorems need to know anything about it they assume `AsciiLower lower`, or that it
maps the text to a given lower-case text.
-/
namespace Pokers
open Spec

/-- What is used of `str::to_lowercase`: ASCII texts are lower-cased letter by letter. -/
def AsciiLower (lower : List Char → List Char) : Prop :=
  ∀ l : List Char, (∀ c ∈ l, c.toNat < 128) → lower l = l.map Char.toLower

example : AsciiLower (List.map Char.toLower) := fun _ _ => rfl

/-! ## Parsing always succeeds or overflows in a weight (C17, C18, C19) -/

theorem fromString_cases (lower : List Char → List Char) (text : List Char) :
    (text = "random".toList ∧ fromString lower text = .ok addAll) ∨
    (∃ res, fromString lower text = .ok (removeDuplicates res) ∧ ∀ c ∈ res, WellFormed c) ∨
    (fromString lower text = .error .overflow ∧ LongRun (lower text ++ [' '])) := by
  unfold fromString
  by_cases ht : text = ['r', 'a', 'n', 'd', 'o', 'm']
  · left
    exact ⟨ht, by rw [if_pos ht]⟩
  · right
    simp only [if_neg ht]
    rcases parseLoop_spec (cv := lower text ++ [' ']) ⟨_, rfl⟩ ((lower text ++ [' ']).length + 1) 0 [] (by simp) (by simp) (by simp)
      with ⟨res, h, hw⟩ | ⟨h, hl⟩
    · left
      exact ⟨res, by simp only [h, bind, Except.bind, pure, Except.pure], hw⟩
    · right
      exact ⟨by simp only [h, bind, Except.bind], hl⟩

theorem LongRun_append_space {l : List Char} (h : LongRun (l ++ [' '])) : LongRun l := by
  obtain ⟨j, hj⟩ := h
  refine ⟨j, fun k hk => ?_⟩
  obtain ⟨c, hc, hd⟩ := hj k hk
  refine ⟨c, ?_, hd⟩
  rw [List.getElem?_append] at hc
  split at hc
  · exact hc
  · rw [List.getElem?_singleton] at hc
    split at hc
    · obtain rfl := Option.some.inj hc
      exact absurd hd (by decide)
    · cases hc

/-- C17: `from_string` terminates on every string, never reads outside its buffer, and can only panic by an overflow in a weight,
which needs at least ten consecutive digits. -/
theorem C17_total (lower : List Char → List Char) (text : List Char) :
    (∃ hands, fromString lower text = .ok hands) ∨ (fromString lower text = .error .overflow ∧ LongRun (lower text)) := by
  rcases fromString_cases lower text with ⟨_, h⟩ | ⟨res, h, _⟩ | ⟨h, hl⟩
  · exact Or.inl ⟨_, h⟩
  · exact Or.inl ⟨_, h⟩
  · exact Or.inr ⟨h, LongRun_append_space hl⟩

/-- C17 for a list of ranges: the outcome is a list of ranges of the same length, or the overflow. -/
theorem C17_strings (lower : List Char → List Char) (arr : List (List Char)) :
    (∃ rs, fromStrings lower arr = .ok rs ∧ rs.length = arr.length) ∨ fromStrings lower arr = .error .overflow := by
  unfold fromStrings
  induction arr with
  | nil => exact Or.inl ⟨[], rfl, rfl⟩
  | cons t arr ih =>
    rw [List.mapM_cons]
    rcases C17_total lower t with ⟨hands, h⟩ | ⟨h, _⟩
    · rcases ih with ⟨rs, hr, hl⟩ | hr
      · exact Or.inl ⟨hands :: rs, by simp only [h, hr, bind, Except.bind, pure, Except.pure], by simp [hl]⟩
      · exact Or.inr (by simp only [h, hr, bind, Except.bind])
    · exact Or.inr (by simp only [h, bind, Except.bind])

/-- The overflow of C17 happens. -/
theorem C17_overflow_happens : fromString id "aa@99999999999".toList = .error .overflow := by decide +kernel

/-- All ranks that reach `add_combos` are below 13, so `4 * rank + suit` fits in a byte. -/
theorem C17_ranks (c : Char) : charToRank c = 255 ∨ charToRank c < 13 := (charToRank_cases c).imp id And.left

theorem addAll_eq : addAll = (List.range 52).flatMap (fun c1 => (List.range c1).map (fun c2 => ⟨c1, c2, 100⟩)) := by
  have inner : ∀ c1 < 52, ∀ hands : List Combo,
      (List.range c1).foldl (fun hands c2 => addCombo hands c1 c2 100) hands =
        hands ++ (List.range c1).map (fun c2 => ⟨c1, c2, 100⟩) := by
    intro c1 h1
    have gen : ∀ (l : List Nat), (∀ x ∈ l, x < c1) → ∀ hands : List Combo,
        l.foldl (fun hands c2 => addCombo hands c1 c2 100) hands = hands ++ l.map (fun c2 => ⟨c1, c2, 100⟩) := by
      intro l
      induction l with
      | nil => intro _ hands; simp
      | cons x l ih =>
        intro hx hands
        have hxc : x < c1 := hx x (by simp)
        have e : addCombo hands c1 x 100 = hands ++ [⟨c1, x, 100⟩] := by
          unfold addCombo
          rw [if_neg (by omega), if_neg (by omega), if_neg ?_]
          simp only [and_three, shr_two]
          omega
        rw [List.foldl_cons, e, ih (fun y hy => hx y (by simp [hy])), List.map_cons, List.append_assoc, List.singleton_append]
    exact gen _ (fun x hx => List.mem_range.1 hx)
  have outer : ∀ (l : List Nat), (∀ x ∈ l, x < 52) → ∀ hands : List Combo,
      l.foldl (fun hands c1 => (List.range c1).foldl (fun hands c2 => addCombo hands c1 c2 100) hands) hands =
        hands ++ l.flatMap (fun c1 => (List.range c1).map (fun c2 => ⟨c1, c2, 100⟩)) := by
    intro l
    induction l with
    | nil => intro _ hands; simp
    | cons x l ih =>
      intro hx hands
      rw [List.foldl_cons, inner x (hx x (by simp)), ih (fun y hy => hx y (by simp [hy])), List.flatMap_cons, List.append_assoc]
  have := outer (List.range 52) (fun x hx => List.mem_range.1 hx) []
  rw [List.nil_append] at this
  exact this

theorem mem_addAll (c : Combo) : c ∈ addAll ↔ c.c2 < c.c1 ∧ c.c1 < 52 ∧ c.w = 100 := by
  rw [addAll_eq, List.mem_flatMap]
  obtain ⟨a, b, w⟩ := c
  simp only [List.mem_range, List.mem_map, Combo.mk.injEq]
  constructor
  · rintro ⟨x, hx, y, hy, rfl, rfl, rfl⟩; exact ⟨hy, hx, rfl⟩
  · rintro ⟨h1, h2, rfl⟩; exact ⟨a, h2, b, h1, rfl, rfl, rfl⟩

/-- C18: every parsed combo consists of two different cards, the larger first, with a weight of at most 100. -/
theorem C18_wellformed {lower : List Char → List Char} {text : List Char} {hands : List Combo}
    (h : fromString lower text = .ok hands) {c : Combo} (hc : c ∈ hands) : c.c2 < c.c1 ∧ c.c1 < 52 ∧ c.w ≤ 100 := by
  rcases fromString_cases lower text with ⟨_, h'⟩ | ⟨res, h', hw⟩ | ⟨h', _⟩ <;> rw [h] at h'
  · rw [Except.ok.inj h', mem_addAll] at hc
    exact ⟨hc.1, hc.2.1, by omega⟩
  · obtain rfl := Except.ok.inj h'
    exact hw c (mem_removeDuplicates_of hc)
  · cases h'

theorem bytes_of_wf {l : List Combo} (h : ∀ c ∈ l, WellFormed c) : Bytes l := by
  intro c hc
  have := h c hc
  unfold WellFormed at this
  omega

/-- C19: unless the text is `random` the hands are strictly increasing in the order of `Combo`. -/
theorem C19_sorted {lower : List Char → List Char} {text : List Char} {hands : List Combo}
    (h : fromString lower text = .ok hands) (ht : text ≠ "random".toList) : hands.Pairwise (fun a b => a.cmp b = .lt) := by
  rcases fromString_cases lower text with ⟨h0, _⟩ | ⟨res, h', hw⟩ | ⟨h', _⟩
  · exact absurd h0 ht
  · rw [h] at h'
    obtain rfl := Except.ok.inj h'
    exact (removeDuplicates_pairwise (bytes_of_wf hw)).imp (fun {a b} hab => (cmp_lt_iff a b).2 hab)
  · rw [h] at h'; cases h'

/-- C19: no hand occurs twice, whatever its weights. -/
theorem C19_nodup {lower : List Char → List Char} {text : List Char} {hands : List Combo}
    (h : fromString lower text = .ok hands) : (hands.map (fun c => (c.c1, c.c2))).Nodup := by
  rw [List.Nodup, List.pairwise_map]
  by_cases ht : text = "random".toList
  · rcases fromString_cases lower text with ⟨_, h'⟩ | ⟨res, h', hw⟩ | ⟨h', _⟩ <;> rw [h] at h'
    · rw [Except.ok.inj h', addAll_eq, List.pairwise_flatMap]
      refine ⟨fun c1 _ => ?_, ?_⟩
      · rw [List.pairwise_map]
        exact List.nodup_range.imp (fun {a b} hab => by simpa using hab)
      · refine List.nodup_range.imp (fun {a b} hab => ?_)
        intro x hx y hy
        rw [List.mem_map] at hx hy
        obtain ⟨_, _, rfl⟩ := hx
        obtain ⟨_, _, rfl⟩ := hy
        simp [hab]
    · obtain rfl := Except.ok.inj h'
      refine (removeDuplicates_pairwise (bytes_of_wf hw)).imp (fun {a b} hab => ?_)
      unfold Combo.Lt at hab
      simp only [ne_eq, Prod.mk.injEq]
      omega
    · cases h'
  · refine (C19_sorted h ht).imp (fun {a b} hab => ?_)
    rw [cmp_lt_iff] at hab
    unfold Combo.Lt at hab
    simp only [ne_eq, Prod.mk.injEq]
    omega

/-! ## `random` (C22) -/

/-- C22: `random` gives every hand exactly once (see also `C19_nodup`) with weight 100. -/
theorem C22_random (lower : List Char → List Char) :
    ∃ hands, fromString lower "random".toList = .ok hands ∧ hands.length = 1326 ∧
      ∀ c : Combo, c ∈ hands ↔ c.c2 < c.c1 ∧ c.c1 < 52 ∧ c.w = 100 := by
  refine ⟨addAll, rfl, ?_, mem_addAll⟩
  rw [addAll_eq]
  decide +kernel

/-- Finding: the capitalised text `Random` is not recognised; it gives the empty range. -/
theorem random_is_case_sensitive : fromString (List.map Char.toLower) "Random".toList = .ok [] := by decide +kernel

/-! ## The meaning of range texts (C20, C21, C24) -/

theorem stop_space : Stop ' ' ∧ ' ' ≠ ',' := by unfold Stop; decide

theorem HasWeight_cons (t : Token) (ts : List Token) (a b w : Nat) :
    HasWeight (t :: ts) a b w ↔ (t.shape.denotes a b ∧ t.percent = w) ∨ (¬ t.shape.denotes a b ∧ HasWeight ts a b w) := by
  unfold HasWeight
  constructor
  · rintro ⟨i, hi, h1, h2, h3⟩
    cases i with
    | zero => left; exact ⟨h1, h2⟩
    | succ i =>
      right
      refine ⟨h3 0 (by omega), i, by simpa using hi, h1, h2, fun j hj => ?_⟩
      exact h3 (j + 1) (by omega)
  · rintro (⟨h1, h2⟩ | ⟨h0, i, hi, h1, h2, h3⟩)
    · exact ⟨0, by simp, h1, h2, fun j hj => absurd hj (by omega)⟩
    · refine ⟨i + 1, by simpa using hi, h1, h2, fun j hj => ?_⟩
      cases j with
      | zero => exact h0
      | succ j => exact h3 j (by omega)

theorem find_flatMap_tokens (ts : List Token) (hv : ∀ t ∈ ts, t.shape.Valid) (c : Combo) :
    (ts.flatMap (fun t => shapeCombos t.percent t.shape)).find? (Combo.same c.c1 c.c2) = some c ↔
      c.c2 < c.c1 ∧ c.c1 < 52 ∧ HasWeight ts c.c1 c.c2 c.w := by
  induction ts with
  | nil => simp [HasWeight]
  | cons t ts ih =>
    have hvt := hv t (by simp)
    rw [List.flatMap_cons, List.find?_append, HasWeight_cons]
    cases hf : (shapeCombos t.percent t.shape).find? (Combo.same c.c1 c.c2) with
    | none =>
      rw [Option.none_or, ih (fun x hx => hv x (by simp [hx]))]
      rw [List.find?_eq_none] at hf
      have hnot : ∀ hlt : c.c2 < c.c1 ∧ c.c1 < 52, ¬ t.shape.denotes c.c1 c.c2 := by
        intro hlt hden
        refine hf ⟨c.c1, c.c2, t.percent⟩ ((mem_shapeCombos hvt).2 ⟨rfl, hlt.1, hlt.2, hden⟩) ?_
        rw [Combo.same_iff]; exact ⟨rfl, rfl⟩
      constructor
      · rintro ⟨h1, h2, h3⟩
        exact ⟨h1, h2, Or.inr ⟨hnot ⟨h1, h2⟩, h3⟩⟩
      · rintro ⟨h1, h2, h3 | h3⟩
        · exact absurd h3.1 (hnot ⟨h1, h2⟩)
        · exact ⟨h1, h2, h3.2⟩
    | some d =>
      rw [Option.some_or, Option.some.injEq]
      have hs := List.find?_some hf
      rw [Combo.same_iff] at hs
      have hm := List.mem_of_find?_eq_some hf
      rw [mem_shapeCombos hvt, hs.1, hs.2] at hm
      constructor
      · rintro rfl
        exact ⟨hm.2.1, hm.2.2.1, Or.inl ⟨hm.2.2.2, hm.1.symm⟩⟩
      · rintro ⟨_, _, h3 | h3⟩
        · obtain ⟨x, y, w⟩ := d
          obtain ⟨x', y', w'⟩ := c
          simp only at hs hm h3 ⊢
          rw [Combo.mk.injEq]
          exact ⟨hs.1, hs.2, by omega⟩
        · exact absurd hm.2.2.2 h3.1

theorem wf_shapes {ts : List Token} (hv : ∀ t ∈ ts, t.shape.Valid ∧ t.percent ≤ 100) :
    ∀ c ∈ ts.flatMap (fun t => shapeCombos t.percent t.shape), WellFormed c := by
  intro c hc
  rw [List.mem_flatMap] at hc
  obtain ⟨t, ht, hc⟩ := hc
  rw [mem_shapeCombos (hv t ht).1] at hc
  refine ⟨hc.2.1, hc.2.2.1, ?_⟩
  rw [hc.1]
  exact (hv t ht).2

theorem wf_tokens {ts : List Token} (hv : ∀ t ∈ ts, t.Valid) :
    ∀ c ∈ ts.flatMap (fun t => shapeCombos t.percent t.shape), WellFormed c := by
  refine wf_shapes fun t ht => ⟨(hv t ht).1, ?_⟩
  unfold Token.percent
  cases hw : t.weight with
  | none => exact le_refl _
  | some ds => exact ((hv t ht).2 ds hw).2.2

theorem rangeText_length (ts : List Token) : ts.length ≤ (rangeText ts).length + 1 := by
  induction ts with
  | nil => simp
  | cons t ts ih =>
    cases ts with
    | nil => simp [rangeText]
    | cons t' ts => simp only [rangeText, List.length_append, List.length_cons, List.length_nil] at ih ⊢; omega

theorem text_ne_random {t : Token} (ts : List Token) : rangeText (t :: ts) ≠ "random".toList := by
  have key : ∀ r, rankLetter r ≠ 'r' := by
    intro r
    by_cases hr : r < 13
    · have : ∀ r < 13, rankLetter r ≠ 'r' := by decide
      exact this r hr
    · unfold rankLetter
      rw [List.getD_eq_default _ _ (by simp; omega)]
      decide
  have hh : ∃ r l, rangeText (t :: ts) = rankLetter r :: l := by
    have ht : ∃ r l, t.text = rankLetter r :: l := by
      unfold Token.text
      cases t.shape <;> exact ⟨_, _, rfl⟩
    obtain ⟨r, l, h⟩ := ht
    cases ts with
    | nil => exact ⟨r, l, by simp [rangeText, h]⟩
    | cons t' ts => exact ⟨r, _, by simp [rangeText, h]; rfl⟩
  obtain ⟨r, l, h⟩ := hh
  rw [h]
  intro he
  have := (List.cons.inj he).1
  exact key r this

/-- The range of a text that starts with well-formed tokens, followed by nothing or by something that cannot continue the list. -/
theorem fromString_text {lower : List Char → List Char} {text : List Char} {ts : List Token} (hne : ts ≠ []) (hv : ∀ t ∈ ts, t.Valid)
    (tail : List Char) (htail : ∀ h l, tail = h :: l → Stop h ∧ h ≠ ',') (hr : text ≠ "random".toList)
    (ht : lower text = rangeText ts ++ tail) :
    fromString lower text = .ok (removeDuplicates (ts.flatMap (fun t => shapeCombos t.percent t.shape))) := by
  have hr' : text ≠ ['r', 'a', 'n', 'd', 'o', 'm'] := hr
  unfold fromString
  rw [if_neg hr']
  have hcv : ∃ h rest, lower text ++ [' '] = rangeText ts ++ h :: rest ∧ Stop h ∧ h ≠ ',' := by
    rw [ht]
    cases tail with
    | nil => exact ⟨' ', [], by simp, stop_space⟩
    | cons h l => exact ⟨h, l ++ [' '], by simp, htail h l rfl⟩
  obtain ⟨h, rest, hcv, hs, hc⟩ := hcv
  have hlen : ts.length ≤ (lower text ++ [' ']).length + 1 := by
    rw [hcv]
    have := rangeText_length ts
    rw [List.length_append]; omega
  have := parseLoop_text (cv := lower text ++ [' ']) ts hne ((lower text ++ [' ']).length + 1) 0 [] h rest hv hlen hs hc
    (by rw [List.drop_zero, hcv])
  simp only [this, bind, Except.bind, pure, Except.pure, List.nil_append]

/-- C21: a comma-separated list of well-formed tokens is the union of the tokens, and a hand has the weight of the first token that
stands for it.  Anything that follows the list and cannot continue it is ignored. -/
theorem C21_union {lower : List Char → List Char} {text : List Char} {ts : List Token} (hne : ts ≠ []) (hv : ∀ t ∈ ts, t.Valid)
    (tail : List Char) (htail : ∀ h l, tail = h :: l → Stop h ∧ h ≠ ',') (hr : text ≠ "random".toList)
    (ht : lower text = rangeText ts ++ tail) :
    ∃ hands, fromString lower text = .ok hands ∧
      ∀ a b w, (⟨a, b, w⟩ : Combo) ∈ hands ↔ b < a ∧ a < 52 ∧ HasWeight ts a b w := by
  refine ⟨_, fromString_text hne hv tail htail hr ht, fun a b w => ?_⟩
  rw [mem_removeDuplicates_iff (bytes_of_wf (wf_tokens hv)), find_flatMap_tokens ts (fun t ht => (hv t ht).1)]

/-- C20: one well-formed token selects exactly the hands it stands for, all with its weight. -/
theorem C20_token {lower : List Char → List Char} {text : List Char} {t : Token} (hv : t.Valid) (hr : text ≠ "random".toList)
    (ht : lower text = t.text) :
    ∃ hands, fromString lower text = .ok hands ∧
      ∀ a b w, (⟨a, b, w⟩ : Combo) ∈ hands ↔ b < a ∧ a < 52 ∧ t.shape.denotes a b ∧ w = t.percent := by
  obtain ⟨hands, h, hm⟩ := C21_union (ts := [t]) (lower := lower) (text := text) (by simp) (by simpa using hv) [] (by simp) hr
    (by simpa [rangeText] using ht)
  refine ⟨hands, h, fun a b w => ?_⟩
  rw [hm, HasWeight_cons]
  have : ¬ HasWeight [] a b w := by
    rintro ⟨i, hi, _⟩
    simp at hi
  constructor
  · rintro ⟨h1, h2, ⟨h3, h4⟩ | ⟨_, h4⟩⟩
    · exact ⟨h1, h2, h3, h4.symm⟩
    · exact absurd h4 this
  · rintro ⟨h1, h2, h3, h4⟩
    exact ⟨h1, h2, Or.inl ⟨h3, h4.symm⟩⟩

theorem lt_antisymm_pairwise {l m : List Combo} (hl : l.Pairwise Combo.Lt) (hm : m.Pairwise Combo.Lt) (h : ∀ c, c ∈ l ↔ c ∈ m) :
    l = m := by
  have irr : ∀ c : Combo, ¬ c.Lt c := by intro c; unfold Combo.Lt; omega
  have nd : ∀ l : List Combo, l.Pairwise Combo.Lt → l.Nodup := by
    intro l hl
    refine hl.imp (fun {a b} hab he => ?_)
    subst he
    exact irr a hab
  have hp : l.Perm m := (List.perm_ext_iff_of_nodup (nd l hl) (nd m hm)).2 h
  refine hp.eq_of_pairwise (fun a b _ _ h1 h2 => ?_) hl hm
  exfalso
  revert h1 h2
  unfold Combo.Lt
  omega

/-- Token lists that give every hand the same weight give the same range. -/
theorem C21_extensional {lower : List Char → List Char} {text text' : List Char} {ts ts' : List Token} (hne : ts ≠ [])
    (hne' : ts' ≠ []) (hv : ∀ t ∈ ts, t.Valid) (hv' : ∀ t ∈ ts', t.Valid) (ht : lower text = rangeText ts)
    (ht' : lower text' = rangeText ts') (hr : text ≠ "random".toList) (hr' : text' ≠ "random".toList)
    (h : ∀ a b w, HasWeight ts a b w ↔ HasWeight ts' a b w) :
    fromString lower text = fromString lower text' := by
  rw [fromString_text hne hv [] (by simp) hr (by simpa using ht), fromString_text hne' hv' [] (by simp) hr' (by simpa using ht')]
  congr 1
  refine lt_antisymm_pairwise (removeDuplicates_pairwise (bytes_of_wf (wf_tokens hv)))
    (removeDuplicates_pairwise (bytes_of_wf (wf_tokens hv'))) (fun c => ?_)
  rw [mem_removeDuplicates_iff (bytes_of_wf (wf_tokens hv)), mem_removeDuplicates_iff (bytes_of_wf (wf_tokens hv')),
    find_flatMap_tokens ts (fun t ht => (hv t ht).1), find_flatMap_tokens ts' (fun t ht => (hv' t ht).1), h]

/-- C24, for combos that are not pairs: the ends of a dash range can be exchanged.  For pairs this is false, see `C24_pairs_fail`. -/
theorem C24_dash_partial {lower : List Char → List Char} {text text' : List Char} {x y z t : Nat} {s : Suffix} {wt : Option (List Nat)}
    {again again' : Bool} (hv : (Token.mk (.dash x y z t s again) wt).Valid) (hxy : x ≠ y)
    (ht : lower text = (Token.mk (.dash x y z t s again) wt).text) (ht' : lower text' = (Token.mk (.dash z t x y s again') wt).text)
    (hr : text ≠ "random".toList) (hr' : text' ≠ "random".toList) :
    fromString lower text = fromString lower text' := by
  obtain ⟨hsh, hw⟩ := hv
  have hsh' := hsh
  simp only [Shape.Valid] at hsh'
  have hv' : (Token.mk (.dash z t x y s again') wt).Valid := by
    refine ⟨?_, hw⟩
    simp only [Shape.Valid]
    omega
  refine C21_extensional (ts := [⟨.dash x y z t s again, wt⟩]) (ts' := [⟨.dash z t x y s again', wt⟩]) (by simp) (by simp)
    (by simpa using ⟨hsh, hw⟩) (by simpa using hv') (by simpa [rangeText] using ht) (by simpa [rangeText] using ht') hr hr' ?_
  intro a b w
  have hden : (Shape.dash x y z t s again).denotes a b ↔ (Shape.dash z t x y s again').denotes a b := by
    simp only [Shape.denotes]
    constructor
    · rintro (⟨h, _⟩ | ⟨_, c, p, q, r, h1, h2, h3, h4, h5⟩)
      · omega
      · exact Or.inr ⟨by omega, c, q, p, r, h2, h1, by omega, by omega, h5⟩
    · rintro (⟨h, _⟩ | ⟨_, c, p, q, r, h1, h2, h3, h4, h5⟩)
      · omega
      · exact Or.inr ⟨by omega, c, q, p, r, h2, h1, by omega, by omega, h5⟩
  rw [HasWeight_cons, HasWeight_cons, hden]
  simp only [Token.percent]

/-- For computing examples. -/
theorem fromString_of_parse {lower : List Char → List Char} {text : List Char} {l m : List Combo}
    (hr : text ≠ ['r', 'a', 'n', 'd', 'o', 'm']) (hl : parseLoop (lower text ++ [' ']) ((lower text ++ [' ']).length + 1) 0 [] = .ok l)
    (hb : ∀ c ∈ l, c.c1 < 256 ∧ c.c2 < 256) (hm : m.Pairwise (fun a b => a.cmp b = .lt))
    (h1 : ∀ c ∈ l, l.find? (Combo.same c.c1 c.c2) = some c → c ∈ m) (h2 : ∀ c ∈ m, l.find? (Combo.same c.c1 c.c2) = some c) :
    fromString lower text = .ok m := by
  unfold fromString
  rw [if_neg hr]
  simp only [hl, bind, Except.bind, pure, Except.pure]
  congr 1
  refine lt_antisymm_pairwise (removeDuplicates_pairwise hb) (hm.imp (fun {a b} hab => (cmp_lt_iff a b).1 hab)) (fun c => ?_)
  rw [mem_removeDuplicates_iff hb]
  exact ⟨fun h => h1 c (List.mem_of_find?_eq_some h) h, h2 c⟩

/-- C24 fails for pairs: `tt-jj` is accepted and gives no hand at all, `jj-tt` gives twelve hands. -/
theorem C24_pairs_fail : fromString id "tt-jj".toList = .ok [] ∧ fromString id "jj-tt".toList = .ok
    [⟨33, 32, 100⟩, ⟨34, 32, 100⟩, ⟨34, 33, 100⟩, ⟨35, 32, 100⟩, ⟨35, 33, 100⟩, ⟨35, 34, 100⟩,
     ⟨37, 36, 100⟩, ⟨38, 36, 100⟩, ⟨38, 37, 100⟩, ⟨39, 36, 100⟩, ⟨39, 37, 100⟩, ⟨39, 38, 100⟩] := by
  refine ⟨by decide +kernel, fromString_of_parse (l := shapeCombos 100 (.dash 9 9 8 8 .any false)) ?_ ?_ ?_ ?_ ?_ ?_⟩ <;>
  decide +kernel

/-! ### Examples -/

/-- `a5s-a3s` -/
example : (Token.mk (.dash 12 3 12 1 .suited true) none).text = "a5s-a3s".toList := by decide
example : (Token.mk (.plus 12 11 .offsuit) (some [5, 0])).text = "ako+@50".toList := by decide
example : (Token.mk (.plus 12 11 .offsuit) (some [5, 0])).Valid := by
  refine ⟨by simp [Shape.Valid], ?_⟩
  intro ds h
  obtain rfl := Option.some.inj h
  decide
example : fromString (List.map Char.toLower) "A5s-A3s,AsKh@50".toList = .ok
    [⟨48, 4, 100⟩, ⟨49, 5, 100⟩, ⟨50, 6, 100⟩, ⟨51, 7, 100⟩, ⟨48, 8, 100⟩, ⟨49, 9, 100⟩, ⟨50, 10, 100⟩, ⟨51, 11, 100⟩,
      ⟨48, 12, 100⟩, ⟨49, 13, 100⟩, ⟨50, 14, 100⟩, ⟨51, 15, 100⟩, ⟨48, 45, 50⟩] := by
  refine fromString_of_parse (l := shapeCombos 100 (.dash 12 3 12 1 .suited true) ++ shapeCombos 50 (.cards 48 45)) ?_ ?_ ?_ ?_ ?_ ?_ <;>
  decide +kernel

/-- Finding: an empty weight is read as 0. -/
theorem empty_weight_is_zero : fromString id "asah@".toList = .ok [⟨49, 48, 0⟩] := by decide +kernel

/-- Finding: a weight above 100 is ignored, and so is everything after it. -/
theorem large_weight_stops_parsing : fromString id "asah@101,kskh".toList = .ok [⟨49, 48, 100⟩] := by decide +kernel

/-- Finding: a space after a comma drops the rest of the range. -/
theorem space_stops_parsing : fromString id "asah, kskh".toList = .ok [⟨49, 48, 100⟩] := by decide +kernel

/-- Finding: a plus after ranks in ascending order gives nothing. -/
theorem ascending_plus_is_empty : fromString id "2a+".toList = .ok [] := by decide +kernel

/-- Finding: a dash range of combos with a kicker at or above the common rank includes the pair of the common rank. -/
theorem dash_across_includes_pair : ∃ hands, fromString id "ka-kq".toList = .ok hands ∧ (⟨45, 44, 100⟩ : Combo) ∈ hands :=
  ⟨removeDuplicates (shapeCombos 100 (.dash 11 12 11 10 .any false)), by
    have : Token.Valid ⟨.dash 11 12 11 10 .any false, none⟩ := by simp [Token.Valid, Shape.Valid]
    have h := fromString_text (lower := id) (text := "ka-kq".toList) (ts := [⟨.dash 11 12 11 10 .any false, none⟩]) (by simp)
      (by simpa using this) [] (by simp) (by decide) (by decide)
    simpa [Token.percent] using h, by
    have hb : Bytes (shapeCombos 100 (.dash 11 12 11 10 .any false)) := by unfold Bytes; decide +kernel
    rw [mem_removeDuplicates_iff hb]
    decide +kernel⟩

/-! ## Removing blocked hands (C23) -/

theorem bits_disjoint (a b m : Nat) : ((((1 <<< a) ||| (1 <<< b)) &&& m) == 0) = true ↔ m.testBit a = false ∧ m.testBit b = false := by
  rw [beq_iff_eq]
  constructor
  · intro h
    have key : ∀ i, (i = a ∨ i = b) → m.testBit i = false := by
      intro i hi
      have : ((((1 <<< a) ||| (1 <<< b)) &&& m)).testBit i = false := by rw [h, Nat.zero_testBit]
      rw [Nat.testBit_and, Nat.testBit_or, Nat.one_shiftLeft, Nat.one_shiftLeft, Nat.testBit_two_pow, Nat.testBit_two_pow] at this
      rcases hi with rfl | rfl <;> simpa using this
    exact ⟨key a (Or.inl rfl), key b (Or.inr rfl)⟩
  · rintro ⟨ha, hb⟩
    apply Nat.eq_of_testBit_eq
    intro i
    rw [Nat.testBit_and, Nat.testBit_or, Nat.one_shiftLeft, Nat.one_shiftLeft, Nat.testBit_two_pow, Nat.testBit_two_pow,
      Nat.zero_testBit]
    by_cases hia : a = i
    · subst hia; simp [ha]
    · by_cases hib : b = i
      · subst hib; simp [hb]
      · simp [hia, hib]

/-- C23: exactly the hands without a board or dead card stay, in their order. -/
theorem C23_filter (hands : List Combo) (board dead : Nat) :
    removeConflictingCombos hands board dead = hands.filter (fun c =>
      !(board.testBit c.c1 || board.testBit c.c2 || dead.testBit c.c1 || dead.testBit c.c2)) := by
  unfold removeConflictingCombos
  apply List.filter_congr
  intro c _
  rw [Bool.eq_iff_iff, bits_disjoint, Nat.testBit_or, Nat.testBit_or]
  simp only [Bool.not_eq_true', Bool.or_eq_false_iff]
  tauto

/-- C23: repeating the call changes nothing. -/
theorem C23_idempotent (hands : List Combo) (board dead : Nat) :
    removeConflictingCombos (removeConflictingCombos hands board dead) board dead = removeConflictingCombos hands board dead := by
  unfold removeConflictingCombos
  rw [List.filter_filter]
  apply List.filter_congr
  intro c _
  rw [Bool.and_self]

/-- C23: two calls are one call with the joint masks, in any order. -/
theorem C23_combine (hands : List Combo) (b d b' d' : Nat) :
    removeConflictingCombos (removeConflictingCombos hands b d) b' d' = removeConflictingCombos hands (b ||| b') (d ||| d') ∧
    removeConflictingCombos (removeConflictingCombos hands b d) b' d' =
      removeConflictingCombos (removeConflictingCombos hands b' d') b d := by
  simp only [C23_filter, List.filter_filter]
  constructor <;>
  · apply List.filter_congr
    intro c _
    try simp only [Nat.testBit_or]
    cases b.testBit c.c1 <;> cases b.testBit c.c2 <;> cases d.testBit c.c1 <;> cases d.testBit c.c2 <;>
    cases b'.testBit c.c1 <;> cases b'.testBit c.c2 <;> cases d'.testBit c.c1 <;> cases d'.testBit c.c2 <;> rfl

example : removeConflictingCombos [⟨49, 48, 100⟩, ⟨47, 3, 50⟩, ⟨51, 7, 100⟩] (2 ^ 3) (2 ^ 51) = [⟨49, 48, 100⟩] := by decide +kernel

/-! ## The order of combos (C47) -/

/-- C47: `cmp` is a total order. -/
theorem C47_total_order (a b c : Combo) :
    a.cmp a = .eq ∧ b.cmp a = (a.cmp b).swap ∧ (a.cmp b ≠ .gt → b.cmp c ≠ .gt → a.cmp c ≠ .gt) := by
  refine ⟨(cmp_eq_iff a a).2 ⟨rfl, rfl⟩, ?_, ?_⟩
  · cases h : a.cmp b with
    | lt => rw [cmp_lt_iff, ← cmp_gt_iff] at h; exact h
    | gt => rw [cmp_gt_iff, ← cmp_lt_iff] at h; exact h
    | eq => rw [cmp_eq_iff] at h; rw [(cmp_eq_iff b a).2 ⟨h.1.symm, h.2.symm⟩]; rfl
  · rw [ne_eq, ne_eq, ne_eq, cmp_gt_iff, cmp_gt_iff, cmp_gt_iff]
    unfold Combo.Lt
    omega

/-- C47: `cmp` gives `Equal` exactly when `==` holds, which compares the two cards and not the weight. -/
theorem C47_eq_consistent {a b : Combo} (h1 : a.c1 < 256) (h2 : a.c2 < 256) (h3 : b.c1 < 256) (h4 : b.c2 < 256) :
    (a.cmp b = .eq ↔ a.eq b = true) ∧ (a.eq b = true ↔ a.c1 = b.c1 ∧ a.c2 = b.c2) := by
  rw [cmp_eq_iff, Combo.eq_iff h1 h2 h3 h4]
  exact ⟨Iff.rfl, Iff.rfl⟩

/-- C47: sort and dedup leave each hand once, in increasing order, with the weight it had first. -/
theorem C47_sort_dedup {l : List Combo} (hb : ∀ c ∈ l, c.c1 < 256 ∧ c.c2 < 256) :
    (removeDuplicates l).Pairwise (fun a b => a.cmp b = .lt) ∧
    (∀ a b w, (⟨a, b, w⟩ : Combo) ∈ removeDuplicates l ↔ l.find? (fun c => c.c1 == a && c.c2 == b) = some ⟨a, b, w⟩) :=
  ⟨(removeDuplicates_pairwise hb).imp (fun {a b} hab => (cmp_lt_iff a b).2 hab), fun a b w => mem_removeDuplicates_iff hb ⟨a, b, w⟩⟩

example : fromString id "5h5s@10,2c2h,5h5s@20".toList = .ok [⟨2, 1, 100⟩, ⟨13, 12, 10⟩] := by
  refine fromString_of_parse (l := [⟨13, 12, 10⟩, ⟨2, 1, 100⟩, ⟨13, 12, 20⟩]) ?_ ?_ ?_ ?_ ?_ ?_ <;> decide +kernel

/-! ## Cards as strings (C14, C15, C16) -/

/-- Name of a card in lower case. -/
def lowerName (c : Nat) : List Char := [rankLetter (rank c), suitLetter (suit c)]

/-- `s` is a name of card `c`, with the rank in either case. -/
def IsName (s : List Char) (c : Nat) : Prop := ∃ r, s = [r, suitLetter (suit c)] ∧ r.toLower = rankLetter (rank c)

theorem isName_cardName {c : Nat} (h : c < 52) : IsName (cardName c) c := by
  have : ∀ c < 52, cardName c = [rankChars.getD (rank c) '?', suitLetter (suit c)] ∧
    (rankChars.getD (rank c) '?').toLower = rankLetter (rank c) := by decide +kernel
  exact ⟨_, (this c h).1, (this c h).2⟩

theorem isName_lowerName {c : Nat} (h : c < 52) : IsName (lowerName c) c := by
  have : ∀ c < 52, (rankLetter (rank c)).toLower = rankLetter (rank c) := by decide +kernel
  exact ⟨_, rfl, this c h⟩

theorem rank_suit_lt {c : Nat} (h : c < 52) : rank c < 13 ∧ suit c < 4 ∧ 4 * rank c + suit c = c := by
  unfold rank suit; omega

/-- Is the character a suit letter? -/
theorem charToSuit_inv {x : Char} (h : charToSuit x ≠ 255) : x = suitLetter (charToSuit x) ∧ charToSuit x < 4 := by
  unfold charToSuit at h ⊢
  split_ifs at h ⊢ with h1 h2 h3 h4
  · subst h1; decide
  · subst h2; decide
  · subst h3; decide
  · subst h4; decide
  · exact absurd rfl h

theorem charToRank_inv {x : Char} (h : charToRank x ≠ 255) : x = rankLetter (charToRank x) ∧ charToRank x < 13 := by
  by_cases h0 : x = 'a'
  · rw [h0]; decide
  by_cases h1 : x = 'k'
  · rw [h1]; decide
  by_cases h2 : x = 'q'
  · rw [h2]; decide
  by_cases h3 : x = 'j'
  · rw [h3]; decide
  by_cases h4 : x = 't'
  · rw [h4]; decide
  by_cases h5 : x = '9'
  · rw [h5]; decide
  by_cases h6 : x = '8'
  · rw [h6]; decide
  by_cases h7 : x = '7'
  · rw [h7]; decide
  by_cases h8 : x = '6'
  · rw [h8]; decide
  by_cases h9 : x = '5'
  · rw [h9]; decide
  by_cases h10 : x = '4'
  · rw [h10]; decide
  by_cases h11 : x = '3'
  · rw [h11]; decide
  by_cases h12 : x = '2'
  · rw [h12]; decide
  exfalso
  apply h
  unfold charToRank
  rw [if_neg h0, if_neg h1, if_neg h2, if_neg h3, if_neg h4, if_neg h5, if_neg h6, if_neg h7, if_neg h8, if_neg h9, if_neg h10, if_neg h11, if_neg h12]

theorem cardFromChars_name {s rest : List Char} {c : Nat} (hc : c < 52) (h : IsName s c) :
    cardFromChars (s ++ rest) = .ok (c, rest) := by
  obtain ⟨r, rfl, hr⟩ := h
  obtain ⟨h1, h2, h3⟩ := rank_suit_lt hc
  simp only [List.cons_append, List.nil_append, cardFromChars, hr, charToRank_letter h1, charToSuit_letter h2, h3]
  rw [if_pos ⟨by omega, by omega⟩]

/-- What `card_from_chars` can return. -/
theorem cardFromChars_ok {s rest : List Char} {c : Nat} (h : cardFromChars s = .ok (c, rest)) :
    ∃ n, s = n ++ rest ∧ ((c < 52 ∧ IsName n c) ∨ (c = 255 ∧ ∃ x, n = ['2', x] ∧ charToSuit x = 255)) := by
  match s with
  | [] => simp [cardFromChars] at h
  | [_] => simp [cardFromChars] at h
  | r :: u :: l =>
    simp only [cardFromChars] at h
    split_ifs at h with hfit
    simp only [Outcome.ok.injEq, Prod.mk.injEq] at h
    obtain ⟨h, rfl⟩ := h
    refine ⟨[r, u], rfl, ?_⟩
    by_cases hr : charToRank r.toLower = 255
    · rw [hr] at hfit; omega
    · obtain ⟨hr1, hr2⟩ := charToRank_inv hr
      by_cases hu : charToSuit u = 255
      · right
        have h0 : charToRank r.toLower = 0 := by omega
        refine ⟨by omega, u, ?_, hu⟩
        rw [h0] at hr1
        have hlow : r.toLower = '2' := hr1
        have : r = '2' := by
          unfold Char.toLower at hlow
          split at hlow
          · rename_i hcase
            exfalso
            have hv := congrArg Char.toNat hlow
            have h1 : r.val ≥ 65 ∧ r.val ≤ 90 := hcase
            have e : (Char.toNat '2') = 50 := by decide
            rw [e] at hv
            have hb1 : (65 : UInt32).toNat ≤ r.val.toNat := h1.1
            have hb2 : r.val.toNat ≤ (90 : UInt32).toNat := h1.2
            simp only [Char.toNat] at hv
            rw [UInt32.toNat_add] at hv
            have e65 : (65 : UInt32).toNat = 65 := rfl
            have e90 : (90 : UInt32).toNat = 90 := rfl
            have e32 : ('a'.val - 'A'.val).toNat = 32 := by decide
            rw [e32] at hv
            omega
          · exact hlow
        rw [this]
      · left
        obtain ⟨hu1, hu2⟩ := charToSuit_inv hu
        have e1 : rank c = charToRank r.toLower := by unfold rank; omega
        have e2 : suit c = charToSuit u := by unfold suit; omega
        refine ⟨by omega, r, ?_, ?_⟩
        · rw [e2, ← hu1]
        · rw [e1, ← hr1]

/-- C15: the name of a card, with the rank in either case, parses to the card. -/
theorem C15_accepts {s : List Char} {c : Nat} (hc : c < 52) (h : IsName s c) : cardFromStr s = .ok c := by
  have := cardFromChars_name (rest := []) hc h
  rw [List.append_nil] at this
  unfold cardFromStr
  rw [this]
  rfl

theorem cardToString_eq {c : Nat} (h : c < 52) : cardToString c = some (cardName c) := by
  have : ∀ c < 52, cardToString c = some (cardName c) := by decide +kernel
  exact this c h

/-- C15: `card_from_str` undoes `card_to_string`. -/
theorem C15_roundtrip {c : Nat} (h : c < 52) : ∃ s, cardToString c = some s ∧ cardFromStr s = .ok c :=
  ⟨cardName c, cardToString_eq h, C15_accepts h (isName_cardName h)⟩

/-- C15, second half: what `card_from_str` accepts is the name of a card, *or* a `2` followed by a character that is no suit, which
gives 255.  Everything else is rejected, or panics (see `C15_panics`). -/
theorem C15_rejects_partial {s : List Char} {c : Nat} (h : cardFromStr s = .ok c) :
    (c < 52 ∧ IsName s c) ∨ (c = 255 ∧ ∃ x, s = ['2', x] ∧ charToSuit x = 255) := by
  unfold cardFromStr at h
  cases hp : cardFromChars s with
  | panic p => rw [hp] at h; cases h
  | err => rw [hp] at h; cases h
  | ok v =>
    obtain ⟨d, rest⟩ := v
    rw [hp] at h
    simp only [Outcome.andThen] at h
    split_ifs at h with he
    obtain rfl := Outcome.ok.inj h
    obtain ⟨n, hn, hcases⟩ := cardFromChars_ok hp
    rw [List.isEmpty_iff] at he
    rw [he, List.append_nil] at hn
    rw [hn]
    exact hcases

/-- C15 fails: `2x` is not a card but parses to the card number 255. -/
theorem C15_rejects_fails : cardFromStr "2x".toList = .ok 255 := by decide +kernel

/-- C15 fails: `3x` and `xs` panic by overflow in a debug build instead of giving an error. -/
theorem C15_panics : cardFromStr "3x".toList = .panic .overflow ∧ cardFromStr "xs".toList = .panic .overflow := by decide +kernel

/-- Strings that do not have two characters are rejected with an error, unless their first two already cause a panic. -/
theorem C15_length {s : List Char} (h : s.length ≠ 2) : (∃ p, cardFromStr s = .panic p ∧ 2 < s.length) ∨ cardFromStr s = .err := by
  match s with
  | [] => exact Or.inr rfl
  | [_] => exact Or.inr rfl
  | [_, _] => exact absurd rfl h
  | a :: b :: c :: l =>
    unfold cardFromStr
    simp only [cardFromChars]
    split_ifs with hf
    · right; rfl
    · left; exact ⟨_, rfl, by simp⟩

example : cardFromStr "As".toList = .ok 48 ∧ cardFromStr "td".toList = .ok 35 ∧ cardFromStr "Asd".toList = .err := by decide +kernel



/-- White space is no rank letter. -/
def SaneSpace (ws : Char → Bool) : Prop := ∀ r c, ws r = true → c < 13 → r.toLower ≠ rankLetter c

theorem dropWhile_name {ws : Char → Bool} (hs : SaneSpace ws) {w s rest : List Char} {c : Nat} (hc : c < 52) (hw : ∀ x ∈ w, ws x = true)
    (h : IsName s c) : (w ++ s ++ rest).dropWhile ws = s ++ rest := by
  obtain ⟨r, rfl, hr⟩ := h
  have hnot : ws r = false := by
    cases hv : ws r with
    | false => rfl
    | true => exact absurd hr (hs r _ hv (rank_suit_lt hc).1)
  induction w with
  | nil => simp [hnot]
  | cons x w ih =>
    have hx : ws x = true := hw x (by simp)
    rw [List.cons_append, List.cons_append, List.dropWhile_cons, if_pos hx]
    exact ih (fun y hy => hw y (by simp [hy]))

theorem flop_core {ws : Char → Bool} (hs : SaneSpace ws) {a b c : Nat} (ha : a < 52) (hb : b < 52) (hc : c < 52) {na nb nc w1 w2 : List Char}
    (hna : IsName na a) (hnb : IsName nb b) (hnc : IsName nc c) (hw1 : ∀ x ∈ w1, ws x = true) (hw2 : ∀ x ∈ w2, ws x = true)
    (extra : List Char) :
    flopFromStr ws (na ++ (w1 ++ nb ++ (w2 ++ nc ++ extra))) =
      if !extra.isEmpty then .err
      else
        let result := [a, b, c].mergeSort (· ≤ ·)
        if result.getD 0 0 = result.getD 1 0 ∨ result.getD 1 0 = result.getD 2 0 ∨ result.getD 0 0 = result.getD 2 0 then .err
        else .ok result := by
  unfold flopFromStr
  rw [cardFromChars_name ha hna]
  simp only [Outcome.andThen]
  rw [dropWhile_name hs hb hw1 hnb, cardFromChars_name hb hnb]
  simp only
  rw [dropWhile_name hs hc hw2 hnc, cardFromChars_name hc hnc]

theorem sorted_three (a b c : Nat) : ∃ x y z, [a, b, c].mergeSort (· ≤ ·) = [x, y, z] ∧ x ≤ y ∧ y ≤ z ∧ [x, y, z].Perm [a, b, c] := by
  have hp := List.mergeSort_perm [a, b, c] (fun x y => decide (x ≤ y))
  have hl := hp.length_eq
  have hs := List.pairwise_mergeSort (le := fun x y => decide (x ≤ y)) (fun x y z h1 h2 => by simp at *; omega)
    (fun x y => by simp; omega) [a, b, c]
  match hm : [a, b, c].mergeSort (fun x y => decide (x ≤ y)), hl, hs, hp with
  | [x, y, z], _, hs, hp =>
    simp at hs
    exact ⟨x, y, z, rfl, hs.1.1, hs.2, hp⟩

/-- C16: three distinct card names, optionally separated by white space, give the three cards in ascending order. -/
theorem C16_flop {ws : Char → Bool} (hs : SaneSpace ws) {a b c : Nat} (ha : a < 52) (hb : b < 52) (hc : c < 52) {na nb nc w1 w2 : List Char}
    (hna : IsName na a) (hnb : IsName nb b) (hnc : IsName nc c) (hw1 : ∀ x ∈ w1, ws x = true) (hw2 : ∀ x ∈ w2, ws x = true)
    (hab : a ≠ b) (hac : a ≠ c) (hbc : b ≠ c) :
    ∃ x y z, flopFromStr ws (na ++ w1 ++ nb ++ w2 ++ nc) = .ok [x, y, z] ∧ x < y ∧ y < z ∧ [x, y, z].Perm [a, b, c] := by
  have h := flop_core hs ha hb hc hna hnb hnc hw1 hw2 []
  obtain ⟨x, y, z, hm, hxy, hyz, hp⟩ := sorted_three a b c
  have hnd : [x, y, z].Nodup := hp.nodup_iff.2 (by simp [hab, hac, hbc])
  simp at hnd
  refine ⟨x, y, z, ?_, by omega, by omega, hp⟩
  have e : na ++ w1 ++ nb ++ w2 ++ nc = na ++ (w1 ++ nb ++ (w2 ++ nc ++ [])) := by simp
  rw [e, h, hm]
  simp [hnd]

/-- C16: a repeated card, or anything after the third card, is rejected. -/
theorem C16_rejects {ws : Char → Bool} (hs : SaneSpace ws) {a b c : Nat} (ha : a < 52) (hb : b < 52) (hc : c < 52)
    {na nb nc w1 w2 extra : List Char} (hna : IsName na a) (hnb : IsName nb b) (hnc : IsName nc c) (hw1 : ∀ x ∈ w1, ws x = true)
    (hw2 : ∀ x ∈ w2, ws x = true) (h : a = b ∨ a = c ∨ b = c ∨ extra ≠ []) :
    flopFromStr ws (na ++ w1 ++ nb ++ w2 ++ nc ++ extra) = .err := by
  have hf := flop_core hs ha hb hc hna hnb hnc hw1 hw2 extra
  have e : na ++ w1 ++ nb ++ w2 ++ nc ++ extra = na ++ (w1 ++ nb ++ (w2 ++ nc ++ extra)) := by simp
  rw [e, hf]
  by_cases hx : extra = []
  · obtain ⟨x, y, z, hm, hxy, hyz, hp⟩ := sorted_three a b c
    have hnd : ¬ [x, y, z].Nodup := by
      rw [hp.nodup_iff]
      simp
      tauto
    have heq : x = y ∨ y = z ∨ x = z := by
      simp at hnd
      omega
    rw [hm]
    simp [heq, hx]
  · have : extra.isEmpty = false := by cases extra <;> simp_all
    rw [this]
    rfl

/-- C16: whatever is accepted gives three different numbers in ascending order, each a card or 255 (`2x`, see `C15_rejects_fails`). -/
theorem C16_accepted {ws : Char → Bool} {s : List Char} {r : List Nat} (h : flopFromStr ws s = .ok r) :
    ∃ x y z, r = [x, y, z] ∧ x < y ∧ y < z ∧ ∀ v ∈ r, v < 52 ∨ v = 255 := by
  unfold flopFromStr at h
  have ok : ∀ (l : List Char) (v : Nat × List Char), cardFromChars l = .ok v → v.1 < 52 ∨ v.1 = 255 := by
    intro l v hv
    obtain ⟨_, _, hc | hc⟩ := cardFromChars_ok (s := l) (c := v.1) (rest := v.2) hv
    · exact Or.inl hc.1
    · exact Or.inr hc.1
  cases h0 : cardFromChars s with
  | panic p => rw [h0] at h; cases h
  | err => rw [h0] at h; cases h
  | ok p0 =>
    rw [h0] at h
    simp only [Outcome.andThen] at h
    cases h1 : cardFromChars (p0.2.dropWhile ws) with
    | panic p => rw [h1] at h; cases h
    | err => rw [h1] at h; cases h
    | ok p1 =>
      rw [h1] at h
      simp only at h
      cases h2 : cardFromChars (p1.2.dropWhile ws) with
      | panic p => rw [h2] at h; cases h
      | err => rw [h2] at h; cases h
      | ok p2 =>
        rw [h2] at h
        simp only at h
        obtain ⟨x, y, z, hm, hxy, hyz, hp⟩ := sorted_three p0.1 p1.1 p2.1
        rw [hm] at h
        simp only [List.getD_cons_zero, List.getD_cons_succ] at h
        split_ifs at h with e1 e2
        obtain rfl := Outcome.ok.inj h
        refine ⟨x, y, z, rfl, by omega, by omega, fun v hv => ?_⟩
        rw [hp.mem_iff] at hv
        simp only [List.mem_cons, List.not_mem_nil, or_false] at hv
        rcases hv with rfl | rfl | rfl
        · exact ok _ _ h0
        · exact ok _ _ h1
        · exact ok _ _ h2

theorem saneSpace_example : SaneSpace (fun c => c == ' ') := by
  intro r c h hc
  have : r = ' ' := by simpa using h
  subst this
  have : ∀ c < 13, Char.toLower ' ' ≠ rankLetter c := by decide
  exact this c hc
example : ∃ x y z, flopFromStr (fun c => c == ' ') "As 2d  Tc".toList = .ok [x, y, z] ∧ x < y ∧ y < z ∧ [x, y, z].Perm [48, 3, 34] :=
  C16_flop saneSpace_example (by decide) (by decide) (by decide) (isName_cardName (c := 48) (by decide))
    (isName_cardName (c := 3) (by decide)) (isName_cardName (c := 34) (by decide)) (w1 := [' ']) (w2 := [' ', ' ']) (by simp) (by simp)
    (by decide) (by decide) (by decide)
example : flopFromStr (fun c => c == ' ') "AsAs2d".toList = .err :=
  C16_rejects saneSpace_example (by decide) (by decide) (by decide) (isName_cardName (c := 48) (by decide))
    (isName_cardName (c := 48) (by decide)) (isName_cardName (c := 3) (by decide)) (w1 := []) (w2 := []) (extra := []) (by simp) (by simp)
    (Or.inl rfl)

/-- The cards whose bits are set. -/
def maskCards (m : Nat) : List Nat := (List.range 52).filter (fun i => m.testBit i)

theorem and_one_ne_zero (i m : Nat) : (1 <<< i) &&& m ≠ 0 ↔ m.testBit i = true := by
  have := bits_disjoint i i m
  rw [Nat.or_self, beq_iff_eq, and_self] at this
  rw [ne_eq, this]
  simp

theorem maskToString_eq (m : Nat) : maskToString m = (maskCards m).flatMap cardName := by
  have gen : ∀ (l : List Nat), (∀ x ∈ l, x < 52) → ∀ s : List Char,
      l.foldl (fun s i => if (1 <<< i) &&& m ≠ 0 then s ++ [RANK_TO_CHAR.getD (i >>> 2) '?', SUIT_TO_CHAR.getD (i &&& 3) '?'] else s) s =
        s ++ (l.filter (fun i => m.testBit i)).flatMap cardName := by
    intro l
    induction l with
    | nil => intro _ s; simp
    | cons x l ih =>
      intro hx s
      have hx52 : x < 52 := hx x (by simp)
      have hn : [RANK_TO_CHAR.getD (x >>> 2) '?', SUIT_TO_CHAR.getD (x &&& 3) '?'] = cardName x := by
        have : ∀ x < 52, [RANK_TO_CHAR.getD (x >>> 2) '?', SUIT_TO_CHAR.getD (x &&& 3) '?'] = cardName x := by decide +kernel
        exact this x hx52
      rw [List.foldl_cons, ih (fun y hy => hx y (by simp [hy])), hn]
      by_cases hb : m.testBit x = true
      · rw [if_pos ((and_one_ne_zero x m).2 hb), List.filter_cons_of_pos hb, List.flatMap_cons, List.append_assoc]
      · rw [if_neg (fun h => hb ((and_one_ne_zero x m).1 h)), List.filter_cons_of_neg (by simpa using hb)]
  have := gen (List.range 52) (fun x hx => List.mem_range.1 hx) []
  rw [List.nil_append] at this
  exact this

/-- C14: `mask_to_string` lists the names of the cards in the mask in ascending order. -/
theorem C14_mask_to_string (m : Nat) : maskToString m = ((List.range 52).filter (fun i => m.testBit i)).flatMap cardName :=
  maskToString_eq m

theorem cardMaskLoop_names (cs : List Nat) : (∀ c ∈ cs, c < 52) → ∀ acc i : Nat,
    (cardMaskLoop (cs.flatMap lowerName) acc).testBit i = (acc.testBit i || decide (i ∈ cs)) := by
  induction cs with
  | nil => intro _ acc i; simp [cardMaskLoop]
  | cons c cs ih =>
    intro h acc i
    obtain ⟨h1, h2, h3⟩ := rank_suit_lt (h c (by simp))
    have e : (c :: cs).flatMap lowerName = rankLetter (rank c) :: suitLetter (suit c) :: cs.flatMap lowerName := by
      rw [List.flatMap_cons]; rfl
    rw [e, cardMaskLoop]
    simp only [charToRank_letter h1, charToSuit_letter h2, h3]
    rw [if_neg (by omega), ih (fun x hx => h x (by simp [hx])), Nat.testBit_or, Nat.one_shiftLeft, Nat.testBit_two_pow]
    by_cases hci : c = i
    · subst hci; simp
    · simp [hci, show i ≠ c from fun h => hci h.symm]

theorem lowerNames_length (cs : List Nat) : (cs.flatMap lowerName).length = 2 * cs.length := by
  induction cs with
  | nil => rfl
  | cons c cs ih => rw [List.flatMap_cons, List.length_append, ih]; simp [lowerName]; omega

/-- C14: the mask of a concatenation of card names has exactly the bits of these cards. -/
theorem C14_names {lower : List Char → List Char} {text : List Char} {cs : List Nat} (h : ∀ c ∈ cs, c < 52)
    (ht : lower text = cs.flatMap lowerName) (i : Nat) : (getCardMask lower text).testBit i = decide (i ∈ cs) := by
  unfold getCardMask
  simp only [ht]
  rw [if_neg (by rw [lowerNames_length]; omega), cardMaskLoop_names cs h]
  simp

theorem cardMaskLoop_bad (l : List Char) : l.length % 2 = 0 → (¬ ∃ cs : List Nat, (∀ c ∈ cs, c < 52) ∧ l = cs.flatMap lowerName) →
    ∀ acc, cardMaskLoop l acc = 0 := by
  match l with
  | [] => intro _ h; exact absurd ⟨[], by simp, rfl⟩ h
  | [_] => intro h; simp at h
  | r :: s :: rest =>
    intro hl hno acc
    rw [cardMaskLoop]
    by_cases hbad : charToRank r = 255 ∨ charToSuit s = 255
    · simp only [if_pos hbad]
    · simp only [if_neg hbad]
      have hr : charToRank r ≠ 255 := fun h => hbad (Or.inl h)
      have hs : charToSuit s ≠ 255 := fun h => hbad (Or.inr h)
      obtain ⟨r1, r2⟩ := charToRank_inv hr
      obtain ⟨s1, s2⟩ := charToSuit_inv hs
      refine cardMaskLoop_bad rest (by simp at hl; omega) ?_ _
      rintro ⟨cs, hcs, rfl⟩
      refine hno ⟨(4 * charToRank r + charToSuit s) :: cs, ?_, ?_⟩
      · intro c hc
        rw [List.mem_cons] at hc
        rcases hc with rfl | hc
        · omega
        · exact hcs c hc
      · have e1 : rank (4 * charToRank r + charToSuit s) = charToRank r := by unfold rank; omega
        have e2 : suit (4 * charToRank r + charToSuit s) = charToSuit s := by unfold suit; omega
        rw [List.flatMap_cons, lowerName, e1, e2, ← r1, ← s1]
        rfl

/-- C14: any other text gives the empty mask. -/
theorem C14_invalid {lower : List Char → List Char} {text : List Char}
    (h : ¬ ∃ cs : List Nat, (∀ c ∈ cs, c < 52) ∧ lower text = cs.flatMap lowerName) : getCardMask lower text = 0 := by
  unfold getCardMask
  by_cases hl : (lower text).length % 2 = 0
  · simp only [hl, ne_eq, not_true_eq_false, if_false]
    exact cardMaskLoop_bad _ hl h 0
  · simp only [ne_eq, hl, not_false_eq_true, if_true]

/-- C14: parsing undoes printing. -/
theorem C14_roundtrip {lower : List Char → List Char} (hl : AsciiLower lower) {m : Nat} (hm : m < 2 ^ 52) :
    getCardMask lower (maskToString m) = m := by
  have hnames : ∀ cs : List Nat, (∀ c ∈ cs, c < 52) →
      (∀ x ∈ cs.flatMap cardName, x.toNat < 128) ∧ (cs.flatMap cardName).map Char.toLower = cs.flatMap lowerName := by
    intro cs
    have one : ∀ c < 52, (∀ x ∈ cardName c, x.toNat < 128) ∧ (cardName c).map Char.toLower = lowerName c := by decide +kernel
    induction cs with
    | nil => intro _; simp
    | cons c cs ih =>
      intro h
      obtain ⟨i1, i2⟩ := ih (fun x hx => h x (by simp [hx]))
      obtain ⟨o1, o2⟩ := one c (h c (by simp))
      refine ⟨?_, ?_⟩
      · intro x hx
        rw [List.flatMap_cons, List.mem_append] at hx
        exact hx.elim (o1 x) (i1 x)
      · rw [List.flatMap_cons, List.map_append, i2, o2, List.flatMap_cons]
  have hcs : ∀ c ∈ maskCards m, c < 52 := by
    intro c hc
    unfold maskCards at hc
    rw [List.mem_filter, List.mem_range] at hc
    exact hc.1
  obtain ⟨h1, h2⟩ := hnames (maskCards m) hcs
  apply Nat.eq_of_testBit_eq
  intro i
  rw [C14_names hcs (text := maskToString m) (by rw [maskToString_eq, hl _ h1, h2]) i]
  by_cases hi : i < 52
  · unfold maskCards
    rw [Bool.eq_iff_iff, decide_eq_true_eq, List.mem_filter, List.mem_range]
    simp [hi]
  · rw [Nat.testBit_lt_two_pow (lt_of_lt_of_le hm (Nat.pow_le_pow_right (by norm_num) (not_lt.1 hi)))]
    rw [decide_eq_false_iff_not]
    exact fun h => hi (hcs i h)

/-- C14: the names of the two hole cards, the lower card first. -/
theorem C14_holes {a b : Nat} (hab : a < b) (hb : b < 52) : holeToString (a, b) = handName (a, b) ∧ holeToString (b, a) = handName (a, b) := by
  have hf : (List.range 52).filter (fun i => (2 ^ a ||| 2 ^ b).testBit i) = [a, b] := by
    have hnd : ((List.range 52).filter (fun i => (2 ^ a ||| 2 ^ b).testBit i)).Pairwise (· < ·) :=
      List.pairwise_lt_range.filter _
    have hp : ((List.range 52).filter (fun i => (2 ^ a ||| 2 ^ b).testBit i)).Perm [a, b] := by
      rw [List.perm_ext_iff_of_nodup (List.nodup_range.filter _) (by simp; omega)]
      intro i
      rw [List.mem_filter, List.mem_range, Nat.testBit_or, Nat.testBit_two_pow, Nat.testBit_two_pow]
      simp
      omega
    exact hp.eq_of_pairwise (fun x y _ _ h1 h2 => by omega) hnd (by simpa using hab)
  constructor
  · unfold holeToString
    rw [C14_mask_to_string, Nat.one_shiftLeft, Nat.one_shiftLeft, hf]
    simp [handName]
  · unfold holeToString
    rw [C14_mask_to_string, Nat.one_shiftLeft, Nat.one_shiftLeft, Nat.or_comm, hf]
    simp [handName]

example : getCardMask (List.map Char.toLower) "As2h".toList = 2 ^ 48 + 2 ^ 1 := by decide +kernel
example : getCardMask (List.map Char.toLower) "As2".toList = 0 ∧ getCardMask (List.map Char.toLower) "As2x".toList = 0 := by
  decide +kernel

/-! ## Names printed for combos (C50) -/

theorem display_eq {c : Combo} (h1 : c.c1 < 52) (h2 : c.c2 < 52) : c.display = some (handName (c.c1, c.c2)) := by
  have key : ∀ x < 52, RANK_TO_CHAR[x >>> 2]? = some (rankChars.getD (rank x) '?') ∧
      SUIT_TO_CHAR[x &&& 3]? = some (suitChars.getD (suit x) '?') := by decide +kernel
  unfold Combo.display
  rw [(key _ h1).1, (key _ h1).2, (key _ h2).1, (key _ h2).2]
  rfl

/-- C50 for hands that are not pairs: the printed name of a parsed combo is the key of its index. -/
theorem C50_display_partial {lower : List Char → List Char} {text : List Char} {hands : List Combo}
    (h : fromString lower text = .ok hands) {c : Combo} (hc : c ∈ hands) (hp : rank c.c1 ≠ rank c.c2) :
    ∃ s, c.display = some s ∧ HAND_TO_INDEX s = some (getCardIndex c.c1 c.c2) := by
  obtain ⟨h1, h2, _⟩ := C18_wellformed h hc
  refine ⟨_, display_eq h2 (by omega), ?_⟩
  rw [C12_hand_to_index]
  refine C12_index_to_hand_order h2 (by omega) ?_
  unfold rank at hp ⊢
  omega

/-- C50 fails: the pair of the aces of hearts and spades is printed as `AhAs`, which is not a key. -/
theorem C50_pairs_fail : ∃ hands c s, fromString id "aa".toList = .ok hands ∧ c ∈ hands ∧ c.display = some s ∧ HAND_TO_INDEX s = none := by
  refine ⟨[⟨49, 48, 100⟩, ⟨50, 48, 100⟩, ⟨50, 49, 100⟩, ⟨51, 48, 100⟩, ⟨51, 49, 100⟩, ⟨51, 50, 100⟩], ⟨49, 48, 100⟩, handName (49, 48),
    ?_, by decide +kernel, by decide +kernel, pair_reversed_not_a_key⟩
  refine fromString_of_parse (l := shapeCombos 100 (.plain 12 12 .any)) ?_ ?_ ?_ ?_ ?_ ?_ <;> decide +kernel

end Pokers
