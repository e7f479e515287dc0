import Verif.Proofs.RangeParse
/-! What the parser does on well-formed texts. -/
namespace Pokers
open Spec

theorem charAt_drop {cv : List Char} {i : Nat} {c : Char} {l : List Char} (h : cv.drop i = c :: l) :
    charAt cv i = .ok c ∧ cv.drop (i + 1) = l := by
  have hi : i < cv.length := by
    by_contra hge
    rw [List.drop_eq_nil_of_le (by omega)] at h
    cases h
  rw [List.drop_eq_getElem_cons hi] at h
  obtain ⟨h1, h2⟩ := List.cons.inj h
  refine ⟨?_, h2⟩
  unfold charAt
  rw [List.getElem?_eq_getElem hi, h1]

theorem parseChar_hit {cv : List Char} {i : Nat} {c : Char} {l : List Char} (h : cv.drop i = c :: l) :
    parseChar cv i c = .ok (true, i + 1) := by
  unfold parseChar
  simp [(charAt_drop h).1, bind, Except.bind, pure, Except.pure]

theorem parseChar_miss {cv : List Char} {i : Nat} {c d : Char} {l : List Char} (h : cv.drop i = d :: l) (hne : d ≠ c) :
    parseChar cv i c = .ok (false, i) := by
  unfold parseChar
  simp [(charAt_drop h).1, bind, Except.bind, pure, Except.pure, hne]

theorem charToRank_letter {r : Nat} (h : r < 13) : charToRank (rankLetter r) = r := by
  have : ∀ r < 13, charToRank (rankLetter r) = r := by decide
  exact this r h

theorem charToSuit_rank {r : Nat} (h : r < 13) : charToSuit (rankLetter r) = 255 := by
  have : ∀ r < 13, charToSuit (rankLetter r) = 255 := by decide
  exact this r h

theorem charToSuit_letter {s : Nat} (h : s < 4) : charToSuit (suitLetter s) = s := by
  have : ∀ s < 4, charToSuit (suitLetter s) = s := by decide
  exact this s h

theorem parseRank_hit {cv : List Char} {i r : Nat} {l : List Char} (hr : r < 13) (h : cv.drop i = rankLetter r :: l) :
    parseRank cv i = .ok (true, i + 1, r) := by
  unfold parseRank
  simp [(charAt_drop h).1, bind, Except.bind, pure, Except.pure, charToRank_letter hr, show r ≠ 255 by omega]

theorem parseSuit_rank {cv : List Char} {i r : Nat} {l : List Char} (hr : r < 13) (h : cv.drop i = rankLetter r :: l) :
    parseSuit cv i = .ok (false, i, 255) := by
  unfold parseSuit
  simp [(charAt_drop h).1, bind, Except.bind, pure, Except.pure, charToSuit_rank hr]

theorem parseSuit_hit {cv : List Char} {i s : Nat} {l : List Char} (hs : s < 4) (h : cv.drop i = suitLetter s :: l) :
    parseSuit cv i = .ok (true, i + 1, s) := by
  unfold parseSuit
  simp [(charAt_drop h).1, bind, Except.bind, pure, Except.pure, charToSuit_letter hs, show s ≠ 255 by omega]

/-- A character that cannot continue a token. -/
def Stop (c : Char) : Prop := c ≠ 'o' ∧ c ≠ 's' ∧ c ≠ '+' ∧ c ≠ '-' ∧ c ≠ '@' ∧ toDigit c = none

/-- How a weight is written. -/
def weightText : Option (List Nat) → List Char
  | none => []
  | some ds => '@' :: ds.map digitChar

theorem toDigit_digit {d : Nat} (h : d < 10) : toDigit (digitChar d) = some d := by
  have : ∀ d < 10, toDigit (digitChar d) = some d := by decide
  exact this d h

theorem decimal_mono (ds : List Nat) (n : Nat) : n ≤ ds.foldl (fun n d => n * 10 + d) n := by
  induction ds generalizing n with
  | nil => exact le_refl _
  | cons d ds ih =>
    rw [List.foldl_cons]
    exact le_trans (by omega) (ih _)

theorem parseWeightLoop_digits {cv : List Char} {b w : Nat} (ds : List Nat) :
    ∀ (fuel i number : Nat) (h : Char) (rest : List Char), (∀ d ∈ ds, d < 10) → ds.length < fuel →
      cv.drop i = ds.map digitChar ++ h :: rest → toDigit h = none → ds.foldl (fun n d => n * 10 + d) number ≤ 100 →
      parseWeightLoop cv b w fuel i number = .ok (true, i + ds.length, ds.foldl (fun n d => n * 10 + d) number) ∧
      cv.drop (i + ds.length) = h :: rest := by
  induction ds with
  | nil =>
    intro fuel i number h rest _ hf hd hh hv
    obtain ⟨fuel, rfl⟩ : ∃ f, fuel = f + 1 := ⟨fuel - 1, by simp at hf; omega⟩
    rw [List.map_nil, List.nil_append] at hd
    refine ⟨?_, hd⟩
    rw [parseWeightLoop]
    simp only [List.foldl_nil] at hv ⊢
    simp [(charAt_drop hd).1, bind, Except.bind, hh, show ¬ 100 < number by omega]
    omega
  | cons d ds ih =>
    intro fuel i number h rest hds hf hd hh hv
    obtain ⟨fuel, rfl⟩ : ∃ f, fuel = f + 1 := ⟨fuel - 1, by simp at hf; omega⟩
    rw [List.map_cons, List.cons_append] at hd
    obtain ⟨hc, hd'⟩ := charAt_drop hd
    have hd10 : d < 10 := hds d (by simp)
    rw [List.foldl_cons] at hv
    have hle : number * 10 + d ≤ 100 := le_trans (decimal_mono ds _) hv
    have := ih fuel (i + 1) (number * 10 + d) h rest (fun x hx => hds x (by simp [hx])) (by simp at hf; omega) hd' hh hv
    rw [parseWeightLoop]
    have h1 : number * 10 < 2 ^ 32 := by omega
    have h2 : number * 10 + d < 2 ^ 32 := by omega
    simp only [hc, bind, Except.bind, toDigit_digit hd10, h1, h2, if_true, List.length_cons, List.foldl_cons]
    rw [show i + (ds.length + 1) = i + 1 + ds.length by omega]
    exact this

/-- The weight of a token. -/
def percentOf : Option (List Nat) → Nat
  | none => 100
  | some ds => decimal ds

theorem drop_length_le {cv : List Char} {i : Nat} {l : List Char} (h : cv.drop i = l) : l.length ≤ cv.length := by
  rw [← h, List.length_drop]; omega

theorem parseAtWeight_text {cv : List Char} {i : Nat} {wt : Option (List Nat)} {h : Char} {rest : List Char}
    (hv : ∀ ds, wt = some ds → ds ≠ [] ∧ (∀ d ∈ ds, d < 10) ∧ decimal ds ≤ 100) (hs : Stop h)
    (hd : cv.drop i = weightText wt ++ h :: rest) :
    ∃ j, parseAtWeight cv i 100 = .ok (j, percentOf wt) ∧ cv.drop j = h :: rest := by
  unfold parseAtWeight
  cases wt with
  | none =>
    rw [weightText, List.nil_append] at hd
    refine ⟨i, ?_, hd⟩
    simp [parseChar_miss hd hs.2.2.2.2.1, bind, Except.bind, pure, Except.pure, percentOf]
  | some ds =>
    obtain ⟨_, h10, h100⟩ := hv ds rfl
    rw [weightText, List.cons_append] at hd
    obtain ⟨_, hd'⟩ := charAt_drop hd
    have hlen : ds.length < cv.length + 1 := by
      have := drop_length_le hd'
      simp at this; omega
    have := parseWeightLoop_digits (b := i + 1) (w := 100) ds (cv.length + 1) (i + 1) 0 h rest h10 hlen hd' hs.2.2.2.2.2 h100
    refine ⟨_, ?_, this.2⟩
    simp [parseChar_hit hd, bind, Except.bind, pure, Except.pure, percentOf, parseWeight, this.1, decimal]

theorem parseSuffix_text {cv : List Char} {i : Nat} {s : Suffix} {h : Char} {rest : List Char} (ho : h ≠ 'o') (hs : h ≠ 's')
    (hd : cv.drop i = s.text ++ h :: rest) :
    ∃ j, parseSuffix cv i = .ok ((sfx s).1, (sfx s).2, j) ∧ cv.drop j = h :: rest := by
  unfold parseSuffix
  cases s with
  | any =>
    rw [Suffix.text, List.nil_append] at hd
    refine ⟨i, ?_, hd⟩
    simp [parseChar_miss hd ho, parseChar_miss hd hs, bind, Except.bind, pure, Except.pure, sfx]
  | suited =>
    rw [Suffix.text, List.singleton_append] at hd
    refine ⟨i + 1, ?_, (charAt_drop hd).2⟩
    simp [parseChar_miss hd (show 's' ≠ 'o' by decide), parseChar_hit hd, bind, Except.bind, pure, Except.pure, sfx]
  | offsuit =>
    rw [Suffix.text, List.singleton_append] at hd
    refine ⟨i + 1, ?_, (charAt_drop hd).2⟩
    simp [parseChar_hit hd, bind, Except.bind, pure, Except.pure, sfx]

theorem weight_head {wt : Option (List Nat)} {h : Char} {rest : List Char} (hs : Stop h) :
    ∃ c l, weightText wt ++ h :: rest = c :: l ∧ c ≠ 'o' ∧ c ≠ 's' ∧ c ≠ '+' ∧ c ≠ '-' := by
  cases wt with
  | none => exact ⟨h, rest, rfl, hs.1, hs.2.1, hs.2.2.1, hs.2.2.2.1⟩
  | some ds => exact ⟨'@', _, rfl, by decide, by decide, by decide, by decide⟩

theorem parseCombosDash_text {cv : List Char} {i x y z t : Nat} {s : Suffix} {again : Bool} {c : Char} {l : List Char}
    (hv : (Shape.dash x y z t s again).Valid) (ho : c ≠ 'o') (hs : c ≠ 's')
    (hd : cv.drop i = [rankLetter z, rankLetter t] ++ (if again then s.text else []) ++ c :: l) :
    ∃ j, parseCombosDash cv x y (sfx s).1 (sfx s).2 i = .ok (true, j, z, t) ∧ cv.drop j = c :: l := by
  obtain ⟨hx, hy, hz, ht, hsh⟩ := hv
  have hd1 : cv.drop i = rankLetter z :: (rankLetter t :: ((if again then s.text else []) ++ c :: l)) := by rw [hd]; rfl
  have hd2 := (charAt_drop hd1).2
  have hd3 := (charAt_drop hd2).2
  have p1 := parseRank_hit hz hd1
  have p2 := parseRank_hit ht hd2
  -- the repeated suffix
  have hsuf : ∃ b1 b2 j1 j, parseChar cv (i + 1 + 1) 'o' = .ok (b1, j1) ∧ parseChar cv j1 's' = .ok (b2, j) ∧
      cv.drop j = c :: l ∧ (b1 = true → (sfx s) = (false, true)) ∧ (b2 = true → (sfx s) = (true, false)) := by
    cases again with
    | false =>
      simp only [Bool.false_eq_true, if_false, List.nil_append] at hd3
      exact ⟨false, false, _, _, parseChar_miss hd3 ho, parseChar_miss hd3 hs, hd3, by simp, by simp⟩
    | true =>
      simp only [if_true] at hd3
      cases s with
      | any =>
        rw [Suffix.text, List.nil_append] at hd3
        exact ⟨false, false, _, _, parseChar_miss hd3 ho, parseChar_miss hd3 hs, hd3, by simp, by simp⟩
      | suited =>
        rw [Suffix.text, List.singleton_append] at hd3
        exact ⟨false, true, _, _, parseChar_miss hd3 (by decide), parseChar_hit hd3, (charAt_drop hd3).2, by simp, by simp [sfx]⟩
      | offsuit =>
        rw [Suffix.text, List.singleton_append] at hd3
        have h4 := (charAt_drop hd3).2
        exact ⟨true, false, _, _, parseChar_hit hd3, parseChar_miss h4 hs, h4, by simp [sfx], by simp⟩
  obtain ⟨b1, b2, j1, j, q1, q2, hj, hb1, hb2⟩ := hsuf
  refine ⟨j, ?_, hj⟩
  have e1 : (b1 && (sfx s).2 != true) = false := by
    cases b1
    · rfl
    · rw [hb1 rfl]; rfl
  have e2 : (b1 && (sfx s).1) = false := by
    cases b1
    · rfl
    · rw [hb1 rfl]; rfl
  have e3 : (b2 && (sfx s).1 != true) = false := by
    cases b2
    · rfl
    · rw [hb2 rfl]; rfl
  have e4 : (b2 && (sfx s).2) = false := by
    cases b2
    · rfl
    · rw [hb2 rfl]; rfl
  unfold parseCombosDash
  simp only [p1, p2, q1, q2, bind, Except.bind, pure, Except.pure, Bool.not_true, Bool.false_eq_true, if_false, e1, e2, e3, e4]
  rw [if_neg (by omega), if_neg (by omega)]
  by_cases hxy : x = y ∧ z = t
  · rw [if_pos hxy]
  · rw [if_neg hxy, if_neg (by omega)]

/-- The parser reads a well-formed token and adds the hands it denotes. -/
theorem parseHand_text {cv : List Char} {i : Nat} {t : Token} (hv : t.Valid) {h : Char} {rest : List Char} (hs : Stop h)
    (hd : cv.drop i = t.text ++ h :: rest) (hands : List Combo) :
    ∃ j, parseHand cv i hands = .ok (true, j, hands ++ shapeCombos t.percent t.shape) ∧ cv.drop j = h :: rest := by
  obtain ⟨sh, wt⟩ := t
  obtain ⟨hvs, hvw⟩ := hv
  have ht : (Token.mk sh wt).text = sh.text ++ weightText wt := by
    unfold Token.text weightText; cases wt <;> rfl
  have hp : (Token.mk sh wt).percent = percentOf wt := by
    unfold Token.percent percentOf; cases wt <;> rfl
  rw [ht, List.append_assoc] at hd
  rw [hp]
  simp only at hvs hvw
  obtain ⟨c, l, hcl, hco, hcs, hcp, hcm⟩ := weight_head (wt := wt) (rest := rest) hs
  unfold parseHand
  cases sh with
  | cards x y =>
    obtain ⟨hx, hy, hxy⟩ := hvs
    have hrx : Spec.rank x < 13 := by unfold Spec.rank; omega
    have hry : Spec.rank y < 13 := by unfold Spec.rank; omega
    have hsx : Spec.suit x < 4 := by unfold Spec.suit; omega
    have hsy : Spec.suit y < 4 := by unfold Spec.suit; omega
    simp only [Shape.text, List.cons_append, List.nil_append] at hd
    have d1 := (charAt_drop hd).2
    have d2 := (charAt_drop d1).2
    have d3 := (charAt_drop d2).2
    have d4 := (charAt_drop d3).2
    obtain ⟨j, hw, hj⟩ := parseAtWeight_text hvw hs d4
    refine ⟨j, ?_, hj⟩
    have ex : 4 * Spec.rank x + Spec.suit x = x := by unfold Spec.rank Spec.suit; omega
    have ey : 4 * Spec.rank y + Spec.suit y = y := by unfold Spec.rank Spec.suit; omega
    simp [parseRank_hit hrx hd, parseSuit_hit hsx d1, parseRank_hit hry d2, parseSuit_hit hsy d3, ex, ey, hxy, hw, bind, Except.bind,
      pure, Except.pure, shapeCombos, addCombo_eq]
  | plain x y s =>
    obtain ⟨hx, hy⟩ := hvs
    simp only [Shape.text, List.cons_append, List.nil_append] at hd
    have d1 := (charAt_drop hd).2
    have d2 := (charAt_drop d1).2
    rw [hcl] at d2
    obtain ⟨j1, hsu, d3⟩ := parseSuffix_text hco hcs d2
    have d3' := d3
    rw [← hcl] at d3'
    obtain ⟨j, hw, hj⟩ := parseAtWeight_text hvw hs d3'
    refine ⟨j, ?_, hj⟩
    simp [parseRank_hit hx hd, parseSuit_rank hy d1, parseRank_hit hy d1, hsu, parseChar_miss d3 hcp, parseChar_miss d3 hcm, hw,
      bind, Except.bind, pure, Except.pure, shapeCombos, addCombos_eq]
  | plus x y s =>
    obtain ⟨hx, hy⟩ := hvs
    simp only [Shape.text, List.cons_append, List.nil_append, List.append_assoc] at hd
    have d1 := (charAt_drop hd).2
    have d2 := (charAt_drop d1).2
    obtain ⟨j1, hsu, d3⟩ := parseSuffix_text (show '+' ≠ 'o' by decide) (show '+' ≠ 's' by decide) d2
    have d4 := (charAt_drop d3).2
    obtain ⟨j, hw, hj⟩ := parseAtWeight_text hvw hs d4
    refine ⟨j, ?_, hj⟩
    simp [parseRank_hit hx hd, parseSuit_rank hy d1, parseRank_hit hy d1, hsu, parseChar_hit d3, hw,
      bind, Except.bind, pure, Except.pure, shapeCombos, addCombosPlus_eq]
  | dash x y z t s again =>
    have hvs' := hvs
    obtain ⟨hx, hy, hz, ht, hsh⟩ := hvs
    simp only [Shape.text, List.cons_append, List.nil_append, List.append_assoc] at hd
    have d1 := (charAt_drop hd).2
    have d2 := (charAt_drop d1).2
    obtain ⟨j1, hsu, d3⟩ := parseSuffix_text (show '-' ≠ 'o' by decide) (show '-' ≠ 's' by decide) d2
    have d4 := (charAt_drop d3).2
    rw [hcl] at d4
    obtain ⟨j2, hdash, d5⟩ := parseCombosDash_text hvs' hco hcs (by rw [d4]; rfl)
    have d5' := d5
    rw [← hcl] at d5'
    obtain ⟨j, hw, hj⟩ := parseAtWeight_text hvw hs d5'
    refine ⟨j, ?_, hj⟩
    simp [parseRank_hit hx hd, parseSuit_rank hy d1, parseRank_hit hy d1, hsu, parseChar_miss d3 (show '-' ≠ '+' by decide),
      parseChar_hit d3, hdash, hw, bind, Except.bind, pure, Except.pure, shapeCombos, addCombosDash_eq]

/-- Reading a comma-separated list of tokens that is followed by something that cannot continue it. -/
theorem parseLoop_text {cv : List Char} (ts : List Token) (hne : ts ≠ []) : ∀ (fuel i : Nat) (hands : List Combo) (h : Char)
    (rest : List Char), (∀ t ∈ ts, t.Valid) → ts.length ≤ fuel → Stop h → h ≠ ',' → cv.drop i = rangeText ts ++ h :: rest →
    parseLoop cv fuel i hands = .ok (hands ++ ts.flatMap (fun t => shapeCombos t.percent t.shape)) := by
  induction ts with
  | nil => exact absurd rfl hne
  | cons t ts ih =>
    intro fuel i hands h rest hv hf hs hc hd
    obtain ⟨fuel, rfl⟩ : ∃ f, fuel = f + 1 := ⟨fuel - 1, by simp at hf; omega⟩
    rw [parseLoop]
    cases ts with
    | nil =>
      simp only [rangeText] at hd
      obtain ⟨j, hp, hj⟩ := parseHand_text (hv t (by simp)) hs hd hands
      simp [hp, parseChar_miss hj hc, bind, Except.bind, pure, Except.pure]
    | cons t' ts =>
      simp only [rangeText, List.append_assoc, List.cons_append, List.nil_append] at hd
      have hcomma : Stop ',' := by unfold Stop; decide
      obtain ⟨j, hp, hj⟩ := parseHand_text (hv t (by simp)) hcomma hd hands
      have := ih (by simp) fuel (j + 1) (hands ++ shapeCombos t.percent t.shape) h rest (fun x hx => hv x (by simp at hx ⊢; tauto))
        (by simp at hf ⊢; omega) hs hc (charAt_drop hj).2
      simp only [hp, parseChar_hit hj, bind, Except.bind, if_true]
      rw [this, List.flatMap_cons (x := t), List.append_assoc]

end Pokers
