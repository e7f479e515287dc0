import Verif.Proofs.Foreign
import Verif.Spec.Letters
import Verif.Props.Range
/-!
C82: upper and lower case, and characters that do not belong to range texts.

`lower` is `str::to_lowercase`; `UnicodeLower` says what is used of it.
-/
namespace Pokers
open Spec

theorem notation_iff (c : Char) : c ∈ Spec.rangeNotation ↔ c ∈ rangeLetters := by
  have h1 : ∀ x ∈ Spec.rangeNotation, x ∈ rangeLetters := by decide
  have h2 : ∀ x ∈ rangeLetters, x ∈ Spec.rangeNotation := by decide
  exact ⟨h1 c, h2 c⟩

theorem letters_ascii : ∀ x ∈ rangeLetters, x.toNat < 128 ∧ x.toLower = x := by decide

theorem toLower_high {c : Char} (h : 128 ≤ c.toNat) : c.toLower = c := by
  unfold Char.toLower
  split
  · rename_i h'
    have h2 : c.val.toNat ≤ 90 := h'.2
    have : 128 ≤ c.val.toNat := h
    omega
  · rfl

theorem kelvin_iff {c : Char} : c.toNat = 0x212A ↔ c = kelvin := by
  constructor
  · intro h
    rw [← Char.ofNat_toNat c, h]
    rfl
  · rintro rfl; decide

theorem letterOf_some {c l : Char} (h : letterOf c = some l) : l ∈ rangeLetters ∧ ∀ out, LowerChar c out → out = [l] := by
  have low : ∀ out, c.toLower ∈ rangeLetters → LowerChar c out → out = [c.toLower] := by
    intro out hc ho
    cases ho with
    | ascii _ h => rfl
    | kelvin => exact absurd hc (by decide)
    | dotted => exact absurd hc (by decide)
    | other _ _ h1 _ _ _ _ =>
      rw [toLower_high h1] at hc
      have := (letters_ascii _ hc).1
      omega
  unfold letterOf at h
  split_ifs at h with h1 h2 h3
  · cases h
    rw [notation_iff] at h1
    have e := (letters_ascii _ h1).2
    refine ⟨h1, fun out ho => ?_⟩
    have := low out (by rw [e]; exact h1) ho
    rwa [e] at this
  · cases h
    rw [notation_iff] at h2
    exact ⟨h2, fun out ho => low out h2 ho⟩
  · cases h
    refine ⟨by decide, fun out ho => ?_⟩
    rw [kelvin_iff] at h3
    cases ho with
    | ascii _ h => subst h3; exact absurd h (by decide)
    | kelvin => rfl
    | dotted => exact absurd h3 (by decide)
    | other _ _ _ h _ _ _ => exact absurd h3 h

theorem letterOf_none {c : Char} (h : letterOf c = none) : ∀ out, LowerChar c out → ∃ x rest, out = x :: rest ∧ x ∉ rangeLetters := by
  intro out ho
  unfold letterOf at h
  split_ifs at h with h1 h2 h3
  rw [notation_iff] at h2
  cases ho with
  | ascii _ h => exact ⟨_, _, rfl, h2⟩
  | kelvin => exact absurd (by decide) h3
  | dotted => exact ⟨_, _, rfl, by decide⟩
  | other _ _ _ _ _ hne hx =>
    match out, hne with
    | x :: rest, _ =>
      refine ⟨x, rest, rfl, fun hm => ?_⟩
      have := (letters_ascii _ hm).1
      have := hx x (by simp)
      omega

/-- After the letters of the text follows a foreign letter or nothing. -/
theorem lower_text {text : List Char} {outs : List (List Char)} (h : List.Forall₂ LowerChar text outs) :
    outs.flatten = lettersOf text ∧ (lettersOf text).length = text.length ∨
    (∃ x rest, outs.flatten = lettersOf text ++ x :: rest ∧ x ∉ rangeLetters) ∧ ∃ c ∈ text, letterOf c = none := by
  induction h with
  | nil => exact Or.inl ⟨rfl, rfl⟩
  | @cons c out text outs h _ ih =>
    unfold lettersOf
    rw [List.flatten_cons]
    cases hc : letterOf c with
    | none =>
      obtain ⟨x, rest, rfl, hx⟩ := letterOf_none hc out h
      exact Or.inr ⟨⟨x, rest ++ outs.flatten, rfl, hx⟩, c, by simp, hc⟩
    | some l =>
      rw [(letterOf_some hc).2 out h]
      rcases ih with ⟨e, el⟩ | ⟨⟨x, rest, e, hx⟩, c', hc', hn⟩
      · exact Or.inl ⟨by rw [e]; rfl, by simp [el]⟩
      · exact Or.inr ⟨⟨x, rest, by rw [e]; rfl, hx⟩, c', by simp [hc'], hn⟩

theorem lettersOf_mem {text : List Char} : ∀ x ∈ lettersOf text, x ∈ rangeLetters := by
  induction text with
  | nil => intro x hx; cases hx
  | cons c text ih =>
    intro x hx
    unfold lettersOf at hx
    cases hc : letterOf c with
    | none => rw [hc] at hx; cases hx
    | some l =>
      rw [hc] at hx
      rcases List.mem_cons.1 hx with rfl | hx
      · exact (letterOf_some hc).1
      · exact ih x hx

theorem lettersOf_not_random (text : List Char) : lettersOf text ≠ ['r', 'a', 'n', 'd', 'o', 'm'] := by
  intro h
  have := lettersOf_mem (text := text) 'r' (by rw [h]; simp)
  revert this
  decide

theorem agree_cut {pre rest : List Char} {x y : Char} {rest' : List Char} (hx : x ∉ rangeLetters) (hy : y ∉ rangeLetters) :
    Agree pre.length (pre ++ x :: rest) (pre ++ y :: rest') := by
  refine ⟨fun i hi => ?_, ⟨x, ?_, hx⟩, ⟨y, ?_, hy⟩⟩
  · rw [List.getElem?_append_left hi, List.getElem?_append_left hi]
  · rw [List.getElem?_append_right (Nat.le_refl _), Nat.sub_self]; rfl
  · rw [List.getElem?_append_right (Nat.le_refl _), Nat.sub_self]; rfl

theorem toLower_toLower (c : Char) : c.toLower.toLower = c.toLower := by
  rcases Nat.lt_or_ge c.toNat 128 with h | h
  · have : ∀ n < 128, (Char.ofNat n).toLower.toLower = (Char.ofNat n).toLower := by decide +kernel
    have := this _ h
    rwa [Char.ofNat_toNat] at this
  · rw [toLower_high h, toLower_high h]

theorem letterOf_toLower (c : Char) : letterOf c.toLower = letterOf c := by
  rcases Nat.lt_or_ge c.toNat 128 with h | h
  · have : ∀ n < 128, letterOf (Char.ofNat n).toLower = letterOf (Char.ofNat n) := by decide +kernel
    have := this _ h
    rwa [Char.ofNat_toNat] at this
  · rw [toLower_high h]

theorem lettersOf_toLower (text : List Char) : lettersOf (text.map Char.toLower) = lettersOf text := by
  induction text with
  | nil => rfl
  | cons c text ih =>
    rw [List.map_cons, lettersOf, lettersOf, letterOf_toLower, ih]

theorem lettersOf_stop {pre rest : List Char} {c : Char} (h : letterOf c = none) : lettersOf (pre ++ c :: rest) = lettersOf pre := by
  induction pre with
  | nil => simp only [List.nil_append, lettersOf, h]
  | cons x pre ih => rw [List.cons_append, lettersOf, lettersOf, ih]

theorem lettersOf_all {text : List Char} (h : (lettersOf text).length = text.length) : ∀ c ∈ text, letterOf c ≠ none := by
  induction text with
  | nil => intro c hc; cases hc
  | cons x text ih =>
    unfold lettersOf at h
    cases hx : letterOf x with
    | none => rw [hx] at h; cases h
    | some l =>
      rw [hx] at h
      intro c hc
      rcases List.mem_cons.1 hc with rfl | hc
      · rw [hx]; exact fun h => nomatch h
      · exact ih (by simpa using h) c hc

theorem cardMaskLoop_foreign : ∀ (l : List Char) (m : Nat), l.length % 2 = 0 → (∃ x ∈ l, x ∉ rangeLetters) → cardMaskLoop l m = 0
  | [], _, _, ⟨x, hx, _⟩ => by cases hx
  | [_], _, h, _ => by cases h
  | r :: s :: rest, m, h, ⟨x, hx, hf⟩ => by
    unfold cardMaskLoop
    simp only
    split_ifs with hc
    · rfl
    · simp only [List.mem_cons] at hx
      rcases hx with rfl | rfl | hx
      · exact absurd (Or.inl (foreign_rank hf)) hc
      · exact absurd (Or.inr (foreign_suit hf)) hc
      · exact cardMaskLoop_foreign rest _ (by simp only [List.length_cons] at h; omega) ⟨x, hx, hf⟩

section
variable {lower : List Char → List Char} (hl : UnicodeLower lower)
include hl

/-- C82: ASCII texts are lower-cased letter by letter. -/
theorem C82_ascii : AsciiLower lower := by
  intro text h
  obtain ⟨outs, h1, h2⟩ := hl text
  rw [h2]
  clear h2
  induction h1 with
  | nil => rfl
  | @cons c out text outs hc _ ih =>
    have h128 := h c (by simp)
    have : out = [c.toLower] := by
      cases hc with
      | ascii => rfl
      | kelvin => exact absurd h128 (by decide)
      | dotted => exact absurd h128 (by decide)
      | other _ _ h1 => omega
    rw [List.flatten_cons, this, ih fun x hx => h x (by simp [hx])]
    rfl

/-- C82: what a text means depends only on the letters for which its characters stand, up to the first one that stands for none. -/
theorem C82_text {text : List Char} (hr : text ≠ "random".toList) : fromString lower text = fromString id (lettersOf text) := by
  obtain ⟨outs, h1, h2⟩ := hl text
  unfold fromString
  have hr : text ≠ ['r', 'a', 'n', 'd', 'o', 'm'] := hr
  rw [if_neg hr, if_neg (lettersOf_not_random text), h2]
  rcases lower_text h1 with ⟨e, _⟩ | ⟨⟨x, rest, e, hx⟩, _⟩
  · rw [e]; rfl
  · have := (agree_cut (pre := lettersOf text) (rest := rest ++ [' ']) (rest' := []) hx (y := ' ') (by decide)).loop
      ((outs.flatten ++ [' ']).length + 1) ((lettersOf text ++ [' ']).length + 1) 0 [] (by omega) (by rw [e]; simp; omega) (by simp; omega)
    simp only [e, List.append_assoc, List.cons_append, id_eq] at this ⊢
    rw [this]

/-- C82: the same for a release build. -/
theorem C82_text_release {text : List Char} (hr : text ≠ "random".toList) : fromStringR lower text = fromStringR id (lettersOf text) := by
  obtain ⟨outs, h1, h2⟩ := hl text
  unfold fromStringR
  have hr : text ≠ ['r', 'a', 'n', 'd', 'o', 'm'] := hr
  rw [if_neg hr, if_neg (lettersOf_not_random text), h2]
  rcases lower_text h1 with ⟨e, _⟩ | ⟨⟨x, rest, e, hx⟩, _⟩
  · rw [e]; rfl
  · have := (agree_cut (pre := lettersOf text) (rest := rest ++ [' ']) (rest' := []) hx (y := ' ') (by decide)).loopR
      ((outs.flatten ++ [' ']).length + 1) ((lettersOf text ++ [' ']).length + 1) 0 [] (by omega) (by rw [e]; simp; omega) (by simp; omega)
    simp only [e, List.append_assoc, List.cons_append, id_eq] at this ⊢
    rw [this]

/-- C82: so texts with the same letters give the same range. -/
theorem C82_same {text text' : List Char} (hr : text ≠ "random".toList) (hr' : text' ≠ "random".toList) (h : lettersOf text = lettersOf text') :
    fromString lower text = fromString lower text' ∧ fromStringR lower text = fromStringR lower text' := by
  rw [C82_text hl hr, C82_text hl hr', C82_text_release hl hr, C82_text_release hl hr', h]
  exact ⟨rfl, rfl⟩

/-- C82: upper and lower case do not matter. -/
theorem C82_case {text text' : List Char} (hr : text ≠ "random".toList) (hr' : text' ≠ "random".toList)
    (h : text.map Char.toLower = text'.map Char.toLower) :
    fromString lower text = fromString lower text' ∧ fromStringR lower text = fromStringR lower text' :=
  C82_same hl hr hr' (by rw [← lettersOf_toLower text, h, lettersOf_toLower])

/-- C82 (finding): except in the word `random`: written in any other way it is the empty range. -/
theorem C82_random {text : List Char} (hr : text ≠ "random".toList) (h : text.map Char.toLower = "random".toList) :
    fromString lower text = .ok [] ∧ fromStringR lower text = .ok [] := by
  rw [C82_text hl hr, C82_text_release hl hr, ← lettersOf_toLower, h]
  decide +kernel

/-- C82 (finding): nothing is read from the first character on that stands for no letter, such as a blank or a letter with an accent. -/
theorem C82_stop {pre rest : List Char} {c : Char} (h : letterOf c = none) (hr : pre ++ c :: rest ≠ "random".toList) (hr' : pre ≠ "random".toList) :
    fromString lower (pre ++ c :: rest) = fromString lower pre ∧ fromStringR lower (pre ++ c :: rest) = fromStringR lower pre :=
  C82_same hl hr hr' (lettersOf_stop h)

/-- C82 (finding): a blank after a comma ends the range: `AsKs, QsJs` is `AsKs`. -/
theorem C82_blank : fromString lower "AsKs, QsJs".toList = .ok [⟨48, 44, 100⟩] ∧
    fromString lower "AsKs,QsJs".toList = .ok [⟨40, 36, 100⟩, ⟨48, 44, 100⟩] := by
  rw [C82_text hl (by decide), C82_text hl (by decide)]
  refine ⟨by decide +kernel, fromString_of_parse (by decide) (l := [⟨48, 44, 100⟩, ⟨40, 36, 100⟩]) ?_ ?_ ?_ ?_ ?_⟩ <;> decide +kernel

/-- C82: the same for the text of `get_card_mask`; a character that stands for no letter makes it zero. -/
theorem C82_mask (text : List Char) :
    getCardMask lower text = if ∃ c ∈ text, letterOf c = none then 0 else getCardMask id (lettersOf text) := by
  obtain ⟨outs, h1, h2⟩ := hl text
  rcases lower_text h1 with ⟨e, el⟩ | ⟨⟨x, rest, e, hx⟩, hn⟩
  · rw [if_neg (by rintro ⟨c, hc, hn⟩; exact lettersOf_all el c hc hn)]
    unfold getCardMask
    rw [h2, e]
    rfl
  · rw [if_pos hn]
    unfold getCardMask
    rw [h2, e]
    simp only
    split_ifs with hp
    · rfl
    · exact cardMaskLoop_foreign _ _ (by omega) ⟨x, by simp, hx⟩

/-- C82: upper and lower case do not matter for `get_card_mask`. -/
theorem C82_mask_case {text text' : List Char} (h : text.map Char.toLower = text'.map Char.toLower) :
    getCardMask lower text = getCardMask lower text' := by
  have key : ∀ t : List Char, getCardMask lower (t.map Char.toLower) = getCardMask lower t := by
    intro t
    rw [C82_mask hl, C82_mask hl, lettersOf_toLower]
    refine if_congr ?_ rfl rfl
    simp only [List.mem_map, exists_exists_and_eq_and, letterOf_toLower]
  rw [← key text, h, key]

/-- C82 (finding): the Kelvin sign is a king in a range and for `get_card_mask`, but not for `card_from_str`. -/
theorem C82_kelvin : fromString lower [kelvin, kelvin] = fromString lower "kk".toList ∧ getCardMask lower [kelvin, 's'] = getCardMask lower "Ks".toList ∧
    cardFromStr "Ks".toList = .ok 44 ∧ cardFromStr [kelvin, 's'] = .panic .overflow := by
  refine ⟨(C82_same hl (by decide) (by decide) (by decide)).1, ?_, by decide, by decide⟩
  rw [C82_mask hl, C82_mask hl]
  decide

end

/-- There is such a conversion. -/
def simpleLower (text : List Char) : List Char :=
  text.flatMap fun c => if c = kelvin then ['k'] else if c = dottedI then ['i', Char.ofNat 0x307] else [c.toLower]

theorem simpleLower_unicode : UnicodeLower simpleLower := by
  intro text
  refine ⟨text.map fun c => if c = kelvin then ['k'] else if c = dottedI then ['i', Char.ofNat 0x307] else [c.toLower], ?_, ?_⟩
  · induction text with
    | nil => exact .nil
    | cons c text ih =>
      refine .cons ?_ ih
      dsimp only
      split_ifs with h1 h2
      · subst h1; exact .kelvin
      · subst h2; exact .dotted
      · rcases Nat.lt_or_ge c.toNat 128 with h | h
        · exact .ascii c h
        · rw [toLower_high h]
          exact .other c [c] h h1 h2 (by simp) (fun x hx => by simp at hx; rw [hx]; exact h)
  · unfold simpleLower
    rw [List.flatMap_def]

example : lettersOf "AKs, QQ".toList = "aks,".toList ∧ lettersOf "Äa".toList = [] ∧ lettersOf "ToJo@50".toList = "tojo@50".toList := by decide

example : fromString simpleLower "As2S".toList = .ok [⟨48, 0, 100⟩] ∧ fromString simpleLower "aS2s é".toList = .ok [⟨48, 0, 100⟩] ∧
    getCardMask simpleLower "aSKH".toList = 2 ^ 48 + 2 ^ 45 := by
  refine ⟨?_, ?_, ?_⟩
  · rw [C82_text simpleLower_unicode (by decide)]; decide +kernel
  · rw [C82_text simpleLower_unicode (by decide)]; decide +kernel
  · rw [C82_mask simpleLower_unicode]; decide +kernel

end Pokers
