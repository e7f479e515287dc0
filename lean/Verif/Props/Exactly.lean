import Verif.Props.Range
import Verif.Props.Exact
/-!
Claim C77.  For the four properties that the code does not have in general (C15, C24, C32, C50): exactly when they hold.
-/
namespace Pokers
open Spec

/-! ## C15 -/

/-- The text begins with the letter of a rank, in either case. -/
def RankFirst (r : Char) : Prop := ∃ k < 13, r.toLower = rankLetter k

theorem rank_255_iff (r : Char) : charToRank r.toLower = 255 ↔ ¬ RankFirst r := by
  constructor
  · rintro h ⟨k, hk, e⟩
    rw [e, charToRank_letter hk] at h
    omega
  · intro h
    by_contra hc
    obtain ⟨h1, h2⟩ := charToRank_inv hc
    exact h ⟨_, h2, h1⟩

theorem suit_255_iff (u : Char) : charToSuit u = 255 ↔ ¬ ∃ s < 4, u = suitLetter s := by
  constructor
  · rintro h ⟨s, hs, e⟩
    rw [e, charToSuit_letter hs] at h
    omega
  · intro h
    by_contra hc
    obtain ⟨h1, h2⟩ := charToSuit_inv hc
    exact h ⟨_, h2, h1⟩

theorem lower_two {r : Char} (h : r.toLower = '2') : charToRank r.toLower = 0 := by rw [h]; decide

/-- C77 (C15, exactly): `card_from_str` returns a card exactly for the names of the card. -/
theorem C77_card_ok {s : List Char} {c : Nat} (hc : c < 52) : cardFromStr s = .ok c ↔ IsName s c := by
  constructor
  · intro h
    rcases C15_rejects_partial h with ⟨_, h⟩ | ⟨rfl, _⟩
    · exact h
    · omega
  · exact C15_accepts hc

/-- C77 (C15, exactly): a number that is no card is returned exactly for a 2 followed by one character that is no suit letter, and it is
255. -/
theorem C77_card_wrong {s : List Char} {c : Nat} (hc : 52 ≤ c) :
    cardFromStr s = .ok c ↔ c = 255 ∧ ∃ x, s = ['2', x] ∧ ¬ ∃ t < 4, x = suitLetter t := by
  constructor
  · intro h
    rcases C15_rejects_partial h with ⟨h, _⟩ | ⟨h, x, h1, h2⟩
    · omega
    · exact ⟨h, x, h1, (suit_255_iff x).1 h2⟩
  · rintro ⟨rfl, x, rfl, hx⟩
    have e := (suit_255_iff x).2 hx
    unfold cardFromStr
    simp only [cardFromChars, e, show charToRank ('2' : Char).toLower = 0 by decide]
    rfl

/-- C77 (C15, exactly): `card_from_str` panics exactly if the text begins with a character that is no rank and some other character, or with
a rank other than 2 and a character that is no suit letter. -/
theorem C77_card_panic (s : List Char) : (∃ p, cardFromStr s = .panic p) ↔
    ∃ r u rest, s = r :: u :: rest ∧ (¬ RankFirst r ∨ (RankFirst r ∧ r.toLower ≠ '2' ∧ ¬ ∃ t < 4, u = suitLetter t)) := by
  match s with
  | [] => exact ⟨(fun ⟨p, h⟩ => by cases h), (fun ⟨_, _, _, h, _⟩ => by cases h)⟩
  | [x] => exact ⟨(fun ⟨p, h⟩ => by cases h), (fun ⟨_, _, _, h, _⟩ => by cases h)⟩
  | r :: u :: rest =>
    have key : (∃ p, cardFromStr (r :: u :: rest) = .panic p) ↔ ¬ (4 * charToRank r.toLower < 2 ^ 8 ∧ 4 * charToRank r.toLower + charToSuit u < 2 ^ 8) := by
      unfold cardFromStr
      simp only [cardFromChars]
      by_cases h : 4 * charToRank r.toLower < 2 ^ 8 ∧ 4 * charToRank r.toLower + charToSuit u < 2 ^ 8
      · rw [if_pos h]
        refine ⟨fun ⟨p, e⟩ => ?_, fun e => absurd h e⟩
        simp only [Outcome.andThen] at e
        split_ifs at e
      · rw [if_neg h]
        exact ⟨fun _ => h, fun _ => ⟨_, rfl⟩⟩
    rw [key]
    have hs : charToSuit u = 255 ∨ charToSuit u < 4 := (charToSuit_cases u).imp id And.left
    constructor
    · intro h
      refine ⟨r, u, rest, rfl, ?_⟩
      by_cases hr : RankFirst r
      · right
        obtain ⟨k, hk, e⟩ := hr
        have ek : charToRank r.toLower = k := by rw [e]; exact charToRank_letter hk
        rw [ek] at h
        refine ⟨⟨k, hk, e⟩, ?_, ?_⟩
        · intro e2
          have := lower_two e2
          omega
        · rw [← suit_255_iff]; omega
      · exact Or.inl hr
    · rintro ⟨r', u', rest', e, h⟩
      simp only [List.cons.injEq] at e
      obtain ⟨rfl, rfl, rfl⟩ := e
      rcases h with h | ⟨⟨k, hk, e⟩, h2, h3⟩
      · rw [← rank_255_iff] at h
        omega
      · rw [← suit_255_iff] at h3
        have ek : charToRank r.toLower = k := by rw [e]; exact charToRank_letter hk
        have : k ≠ 0 := by
          rintro rfl
          exact h2 e
        omega

/-- C77 (C15, exactly): the property asked for (a card for its names and an error for everything else) holds for a text exactly if it is the
name of a card, or has less than two characters, or more than two of which the first two do not panic. -/
theorem C77_card (s : List Char) : ((∃ c < 52, IsName s c ∧ cardFromStr s = .ok c) ∨ ((¬ ∃ c < 52, IsName s c) ∧ cardFromStr s = .err)) ↔
    ((∃ c < 52, IsName s c) ∨ s.length < 2 ∨
      (2 < s.length ∧ ¬ ∃ r u rest, s = r :: u :: rest ∧ (¬ RankFirst r ∨ (RankFirst r ∧ r.toLower ≠ '2' ∧ ¬ ∃ t < 4, u = suitLetter t)))) := by
  rw [← C77_card_panic]
  have hlen : ∀ c, IsName s c → s.length = 2 := by
    rintro c ⟨r, rfl, _⟩
    rfl
  constructor
  · rintro (⟨c, hc, hn, _⟩ | ⟨hn, he⟩)
    · exact Or.inl ⟨c, hc, hn⟩
    · right
      by_cases h2 : s.length = 2
      · exfalso
        match s, h2 with
        | [r, u], _ =>
          unfold cardFromStr at he
          simp only [cardFromChars] at he
          split_ifs at he <;> cases he
      · rcases Nat.lt_or_gt_of_ne h2 with h | h
        · exact Or.inl h
        · right
          refine ⟨h, ?_⟩
          rintro ⟨p, e⟩
          rw [e] at he
          cases he
  · rintro (⟨c, hc, hn⟩ | h | ⟨h, hp⟩)
    · exact Or.inl ⟨c, hc, hn, C15_accepts hc hn⟩
    · right
      refine ⟨?_, ?_⟩
      · rintro ⟨c, _, hn⟩
        have := hlen c hn
        omega
      · rcases C15_length (s := s) (by omega) with ⟨p, _, h2⟩ | h
        · omega
        · exact h
    · right
      refine ⟨?_, ?_⟩
      · rintro ⟨c, _, hn⟩
        have := hlen c hn
        omega
      · rcases C15_length (s := s) (by omega) with ⟨p, h1, _⟩ | h
        · exact absurd ⟨p, h1⟩ hp
        · exact h

/-! ## C24 -/

/-- C77 (C24, suited pairs): there are none, so both orders give nothing. -/
theorem C77_suited_pairs {lower : List Char → List Char} {text text' : List Char} {x z : Nat} {wt : Option (List Nat)}
    {again again' : Bool} (hv : (Token.mk (.dash x x z z .suited again) wt).Valid)
    (ht : lower text = (Token.mk (.dash x x z z .suited again) wt).text) (ht' : lower text' = (Token.mk (.dash z z x x .suited again') wt).text)
    (hr : text ≠ "random".toList) (hr' : text' ≠ "random".toList) : fromString lower text = .ok [] ∧ fromString lower text' = .ok [] := by
  have none : ∀ {lower : List Char → List Char} {text : List Char} {x z : Nat} {again : Bool},
      (Token.mk (.dash x x z z .suited again) wt).Valid → lower text = (Token.mk (.dash x x z z .suited again) wt).text →
      text ≠ "random".toList → fromString lower text = .ok [] := by
    intro lower text x z again hv ht hr
    obtain ⟨hands, e, hm⟩ := C20_token hv hr ht
    rw [e]
    cases hands with
    | nil => rfl
    | cons c l =>
      exfalso
      obtain ⟨a, b, w⟩ := c
      obtain ⟨h1, _, h2, _⟩ := (hm a b w).1 (by simp)
      rcases h2 with ⟨_, r, _, _, h3, h4⟩ | ⟨h, _⟩
      · have h5 : suit a = suit b := h4
        unfold rank at h3
        unfold suit at h5
        omega
      · exact h rfl
  refine ⟨none hv ht hr, none ?_ ht' hr'⟩
  obtain ⟨hsh, hw⟩ := hv
  simp only [Shape.Valid] at hsh
  exact ⟨⟨by omega, by omega, by omega, by omega, Or.inl ⟨rfl, rfl⟩⟩, hw⟩

/-- C77 (C24, exactly): swapping the ends of a dash does not matter exactly for two different ranks, for one pair twice and
for suited pairs (of which there are none). -/
theorem C77_dash {lower : List Char → List Char} {text text' : List Char} {x y z t : Nat} {s : Suffix} {wt : Option (List Nat)}
    {again again' : Bool} (hv : (Token.mk (.dash x y z t s again) wt).Valid)
    (ht : lower text = (Token.mk (.dash x y z t s again) wt).text) (ht' : lower text' = (Token.mk (.dash z t x y s again') wt).text)
    (hr : text ≠ "random".toList) (hr' : text' ≠ "random".toList) :
    fromString lower text = fromString lower text' ↔ (x ≠ y ∨ x = z ∨ s = .suited) := by
  by_cases hxy : x = y
  swap
  · exact ⟨fun _ => Or.inl hxy, fun _ => C24_dash_partial hv hxy ht ht' hr hr'⟩
  obtain ⟨hsh, hw⟩ := hv
  simp only [Shape.Valid] at hsh
  have hv' : (Token.mk (.dash z t x y s again') wt).Valid := ⟨by simp only [Shape.Valid]; omega, hw⟩
  obtain ⟨hands, e, hm⟩ := C20_token ⟨by simpa only [Shape.Valid] using hsh, hw⟩ hr ht
  obtain ⟨hands', e', hm'⟩ := C20_token hv' hr' ht'
  have hzt : z = t := by omega
  subst hxy hzt
  rw [e, e']
  constructor
  · intro h
    obtain rfl := Except.ok.inj h
    right
    by_contra hcon
    obtain ⟨hne, hs⟩ := not_or.1 hcon
    have hd : ∀ {p q r : Nat} {a : Bool}, q ≤ r → r ≤ p → r < 13 → (Shape.dash p p q q s a).denotes (4 * r + 1) (4 * r) := by
      intro p q r a h1 h2 h3
      refine Or.inl ⟨rfl, r, h1, h2, Or.inl ⟨by unfold rank; omega, by unfold rank; omega⟩, ?_⟩
      cases s with
      | any => trivial
      | suited => exact absurd rfl hs
      | offsuit =>
        show suit (4 * r + 1) ≠ suit (4 * r)
        unfold suit
        omega
    have hn : ∀ {p q r : Nat} {a : Bool}, p < q → ¬ (Shape.dash p p q q s a).denotes (4 * r + 1) (4 * r) := by
      rintro p q r a h1 (⟨_, r', h2, h3, _⟩ | ⟨h, _⟩)
      · omega
      · exact h rfl
    rcases Nat.lt_or_gt_of_ne hne with h | h
    · have h1 := (hm' (4 * z + 1) (4 * z) _).2 ⟨by omega, by omega, hd (r := z) (by omega) (by omega) (by omega), rfl⟩
      exact hn h ((hm _ _ _).1 h1).2.2.1
    · have h1 := (hm (4 * x + 1) (4 * x) _).2 ⟨by omega, by omega, hd (r := x) (by omega) (by omega) (by omega), rfl⟩
      exact hn h ((hm' _ _ _).1 h1).2.2.1
  · rintro (h | rfl | rfl)
    · exact absurd rfl h
    · congr 1
      have := C21_extensional (lower := lower) (ts := [⟨.dash x x x x s again, wt⟩]) (ts' := [⟨.dash x x x x s again', wt⟩]) (by simp) (by simp)
        (by simpa using ⟨by simpa only [Shape.Valid] using hsh, hw⟩) (by simpa using hv') (by simpa [rangeText] using ht)
        (by simpa [rangeText] using ht') hr hr' (fun a b w => by rw [HasWeight_cons, HasWeight_cons]; rfl)
      rw [e, e'] at this
      exact Except.ok.inj this
    · obtain ⟨h1, h2⟩ := C77_suited_pairs (again := again) (again' := again') ⟨by simpa only [Shape.Valid] using hsh, hw⟩ ht ht' hr hr'
      rw [e] at h1
      rw [e'] at h2
      rw [h1, h2]

/-! ## C50 -/

theorem pair_not_a_key {a b : Nat} (hb : b < a) (ha : a < 52) (hr : rank a = rank b) : HAND_TO_INDEX (handName (a, b)) = none := by
  cases h : HAND_TO_INDEX (handName (a, b)) with
  | none => rfl
  | some i =>
    rw [C12_hand_to_index, index_to_hand_eq, List.getElem?_map] at h
    cases hp : allHands[i]? with
    | none => rw [hp] at h; simp at h
    | some p =>
      rw [hp] at h
      simp only [Option.map_some, Option.some.injEq] at h
      obtain ⟨c, d⟩ := p
      have hm' := mem_allHands.1 (List.mem_of_getElem? hp)
      have h1 : cardName c = cardName a := by
        have := congrArg (List.take 2) h
        simpa [handName, cardName] using this
      have h2 : cardName d = cardName b := by
        have := congrArg (List.drop 2) h
        simpa [handName, cardName] using this
      have e1 := cardName_inj hm'.1 ha h1
      have e2 := cardName_inj hm'.2.1 (by omega) h2
      subst e1 e2
      unfold rank at hr
      omega

/-- C77 (C50, exactly): the printed name of a hand of a range is a key of the results exactly if the hand is no pair, and then it is the key
of its results. -/
theorem C77_display {lower : List Char → List Char} {text : List Char} {hands : List Combo}
    (h : fromString lower text = .ok hands) {c : Combo} (hc : c ∈ hands) :
    ∃ s, c.display = some s ∧ (HAND_TO_INDEX s = if rank c.c1 ≠ rank c.c2 then some (getCardIndex c.c1 c.c2) else none) := by
  obtain ⟨h1, h2, _⟩ := C18_wellformed h hc
  by_cases hp : rank c.c1 = rank c.c2
  · refine ⟨_, display_eq h2 (by omega), ?_⟩
    rw [if_neg (by simpa using hp)]
    exact pair_not_a_key h1 h2 hp
  · rw [if_pos hp]
    exact C50_display_partial h hc hp

/-! ## C32 -/

/-- C77 (C32, exactly): with up to eight players every sole winner is credited; with nine players every sole winner is credited exactly if in
no showdown the ninth player wins alone or shares with exactly one other player. -/
theorem C77_sole_winner {ranges : List (List Combo)} {b d nT : Nat} {cancelled : Bool} {r : Results} {sent : List Nat}
    (hwf : ∀ r ∈ ranges, WfRange r) (hb : CardMask b) (hd : CardMask d) (hT : 0 < nT) (h9 : ranges.length ≤ 9)
    (h : ExactEquity ranges b d nT cancelled false (.ok r) sent) :
    CreditsSoleWinners ranges b d r ↔ (ranges.length = 9 →
      winsOf (showdowns (specRanges ranges) (maskCards b) (maskCards d)) [8] = 0 ∧
      ∀ p < 8, winsOf (showdowns (specRanges ranges) (maskCards b) (maskCards d)) [p, 8] = 0) := by
  by_cases hl : ranges.length = 9
  · obtain ⟨h0, _, _, h1⟩ := C32_nine_players hwf hb hd hT hl h
    unfold CreditsSoleWinners
    constructor
    · intro hc _
      refine ⟨?_, fun p hp => ?_⟩
      · rw [← hc 8 (by omega), h0]
      · have := hc p (by omega)
        rw [h1 p hp] at this
        omega
    · intro hc p hp
      obtain ⟨c1, c2⟩ := hc hl
      rcases Nat.lt_or_ge p 8 with h8 | h8
      · rw [h1 p h8, c2 p h8, Nat.add_zero]
      · obtain rfl : p = 8 := by omega
        rw [h0, c1]
  · exact ⟨fun _ h => absurd h hl, fun _ => C32_partial hwf hb hd hT (by omega) h⟩

/-! ## Examples -/

example : (∃ p, cardFromStr "3x".toList = .panic p) ∧ ¬ (∃ p, cardFromStr "3s".toList = .panic p) ∧ cardFromStr "2x".toList = .ok 255 :=
  ⟨⟨_, (by decide +kernel : cardFromStr "3x".toList = .panic .overflow)⟩,
    (fun ⟨p, h⟩ => by rw [show cardFromStr "3s".toList = .ok 4 by decide +kernel] at h; cases h), by decide +kernel⟩

end Pokers
