import Verif.Proofs.ReleaseText
import Verif.Props.Reading
/-!
Claim C76: reading texts in a release build.

Parsing a range never panics in a release build.  Wherever the checked (debug) build does not panic the result is the same; in general
the result is what the checked build reads if every weight is replaced by its remainder modulo 2^32.  So `aa@4294967300` is read like
`aa@4`, though a weight above 100 is otherwise ignored.  `card_from_str` accepts every text of two characters: a rank other than 2 with a
wrong suit letter is read as the diamond of the rank below.
-/
namespace Pokers
open Spec

/-- C76: a release build reads the text in which every weight is replaced by its remainder modulo 2^32, and does not panic. -/
theorem C76_reduced (lower : List Char → List Char) (text l' : List Char) (h : Reduced (lower text) l') :
    fromStringR lower text = fromString (fun _ => l') text ∧ ∃ hands, fromStringR lower text = .ok hands := by
  obtain ⟨res, h1, h2⟩ := fromStringR_reduced lower text l' h
  exact ⟨h1.trans h2.symm, res, h1⟩

/-- C76: the weights of every text can be reduced. -/
theorem C76_reduced_exists (l : List Char) : ∃ l', Reduced l l' := by
  obtain ⟨l', h, _⟩ := reduced_exists l.length l (le_refl _)
  exact ⟨l', h⟩

/-- C76: reading a range never panics and always ends. -/
theorem C76_total (lower : List Char → List Char) (text : List Char) : ∃ hands, fromStringR lower text = .ok hands := by
  obtain ⟨l', h⟩ := C76_reduced_exists (lower text)
  exact (C76_reduced lower text l' h).2

/-- C76: a list of texts gives a list of ranges of the same length. -/
theorem C76_strings (lower : List Char → List Char) (arr : List (List Char)) :
    ∃ rs, fromStringsR lower arr = .ok rs ∧ rs.length = arr.length ∧
      ∀ (k : Nat) (t : List Char), arr[k]? = some t → ∃ hands, rs[k]? = some hands ∧ fromStringR lower t = .ok hands := by
  unfold fromStringsR
  induction arr with
  | nil => exact ⟨[], rfl, rfl, by simp⟩
  | cons t arr ih =>
    obtain ⟨hands, h⟩ := C76_total lower t
    obtain ⟨rs, h1, h2, h3⟩ := ih
    refine ⟨hands :: rs, by rw [List.mapM_cons, h, h1]; rfl, by simp [h2], ?_⟩
    intro k u hk
    cases k with
    | zero =>
      obtain rfl : t = u := by simpa using hk
      exact ⟨hands, rfl, h⟩
    | succ k =>
      rw [List.getElem?_cons_succ] at hk ⊢
      exact h3 k u hk

/-- C76: where the checked build does not panic, the release build gives the same range. -/
theorem C76_same {lower : List Char → List Char} {text : List Char} {hands : List Combo} (h : fromString lower text = .ok hands) :
    fromStringR lower text = .ok hands := fromString_follows lower text hands h

/-- C76: the release build gives a range that differs from that of the checked build only where the checked build panics, and then
ten digits follow each other in the text. -/
theorem C76_differs {lower : List Char → List Char} {text : List Char} (h : fromStringR lower text ≠ fromString lower text) :
    fromString lower text = .error .overflow ∧ LongRun (lower text) := by
  rcases C17_total lower text with ⟨hands, h1⟩ | h1
  · exact absurd ((C76_same h1).trans h1.symm) h
  · exact h1

/-- C76: the hands of the range are those of the tokens read, with the weights reduced. -/
theorem C76_meaning {lower : List Char → List Char} {text l' tail : List Char} {ts : List Token} {hands : List Combo}
    (hr : text ≠ "random".toList) (h : fromStringR lower text = .ok hands) (hl : Reduced (lower text) l') (ht : Reads l' ts tail)
    (a b w : Nat) : (⟨a, b, w⟩ : Combo) ∈ hands ↔ b < a ∧ a < 52 ∧ HasWeight ts a b w := by
  rw [(C76_reduced lower text l' hl).1] at h
  exact C54_meaning (lower := fun _ => l') hr h ht a b w

/-- C76: every hand consists of two different cards and has a weight of at most 100. -/
theorem C76_wellformed {lower : List Char → List Char} {text : List Char} {hands : List Combo} (h : fromStringR lower text = .ok hands) :
    ∀ c ∈ hands, WellFormed c := by
  obtain ⟨l', hl⟩ := C76_reduced_exists (lower text)
  rw [(C76_reduced lower text l' hl).1] at h
  by_cases hr : text = "random".toList
  · have e : fromString (fun _ => l') text = .ok addAll := by
      unfold fromString
      rw [if_pos (show text = ['r', 'a', 'n', 'd', 'o', 'm'] from hr)]
    rw [e] at h
    obtain rfl := Except.ok.inj h
    intro c hc
    rw [addAll_eq] at hc
    simp only [List.mem_flatMap, List.mem_map, List.mem_range] at hc
    obtain ⟨a, ha, b, hb, rfl⟩ := hc
    exact ⟨hb, ha, le_refl _⟩
  · obtain ⟨ts, tail, hts⟩ := C54_exists l'
    rintro ⟨a, b, w⟩ hc
    rw [C54_meaning (lower := fun _ => l') hr h hts a b w] at hc
    obtain ⟨h1, h2, i, hi, _, hw, _⟩ := hc
    exact ⟨h1, h2, hw ▸ (reads_valid hts _ (List.getElem_mem hi)).2⟩

theorem Reduced.prefix {p l l' : List Char} (hp : ∀ c ∈ p, c ≠ '@') (h : Reduced l l') : Reduced (p ++ l) (p ++ l') := by
  induction p with
  | nil => exact h
  | cons c p ih => exact .other (hp c (by simp)) (ih (fun d hd => hp d (by simp [hd])))

theorem rankLetter_not_at {r : Nat} (h : r < 13) : rankLetter r ≠ '@' := by
  have : ∀ r < 13, rankLetter r ≠ '@' := by decide
  exact this r h

theorem suitLetter_not_at {s : Nat} (h : s < 4) : suitLetter s ≠ '@' := by
  have : ∀ s < 4, suitLetter s ≠ '@' := by decide
  exact this s h

theorem suffix_not_at (s : Suffix) : ∀ c ∈ s.text, c ≠ '@' := by
  cases s <;> decide

theorem shape_not_at {s : Shape} (hv : s.Valid) : ∀ c ∈ s.text, c ≠ '@' := by
  intro c hc
  cases s with
  | cards a b =>
    obtain ⟨h1, h2, _⟩ := hv
    simp only [Shape.text, List.mem_cons, List.not_mem_nil, or_false] at hc
    rcases hc with rfl | rfl | rfl | rfl
    · exact rankLetter_not_at (rank_suit_lt h1).1
    · exact suitLetter_not_at (rank_suit_lt h1).2.1
    · exact rankLetter_not_at (rank_suit_lt h2).1
    · exact suitLetter_not_at (rank_suit_lt h2).2.1
  | plain x y s =>
    simp only [Shape.text, List.mem_append, List.mem_cons, List.not_mem_nil, or_false] at hc
    rcases hc with (rfl | rfl) | hc
    · exact rankLetter_not_at hv.1
    · exact rankLetter_not_at hv.2
    · exact suffix_not_at s c hc
  | plus x y s =>
    simp only [Shape.text, List.mem_append, List.mem_cons, List.not_mem_nil, or_false] at hc
    rcases hc with ((rfl | rfl) | hc) | rfl
    · exact rankLetter_not_at hv.1
    · exact rankLetter_not_at hv.2
    · exact suffix_not_at s c hc
    · decide
  | dash x y z t s again =>
    obtain ⟨h1, h2, h3, h4, _⟩ := hv
    simp only [Shape.text, List.mem_append, List.mem_cons, List.not_mem_nil, or_false] at hc
    rcases hc with (((rfl | rfl) | hc) | rfl | rfl | rfl) | hc
    · exact rankLetter_not_at h1
    · exact rankLetter_not_at h2
    · exact suffix_not_at s c hc
    · decide
    · exact rankLetter_not_at h3
    · exact rankLetter_not_at h4
    · split_ifs at hc
      · exact suffix_not_at s c hc
      · cases hc

theorem begins_at {c : Char} {l : List Char} (h : c ≠ '@') : ¬ Begins c ('@' :: l) := fun e => h (Option.some.inj e).symm

/-- Every shape can be written so that a weight may follow. -/
theorem shape_followed {s : Shape} (hv : s.Valid) (l : List Char) : ∃ s' : Shape, s'.Valid ∧ s'.text = s.text ∧
    (∀ a b, s'.denotes a b ↔ s.denotes a b) ∧ s'.Followed ('@' :: l) := by
  cases s with
  | cards a b => exact ⟨_, hv, rfl, fun _ _ => Iff.rfl, trivial⟩
  | plain x y s => exact ⟨_, hv, rfl, fun _ _ => Iff.rfl, fun _ => ⟨begins_at (by decide), begins_at (by decide)⟩, begins_at (by decide),
      begins_at (by decide)⟩
  | plus x y s => exact ⟨_, hv, rfl, fun _ _ => Iff.rfl, trivial⟩
  | dash x y z t s again =>
    cases again with
    | false => exact ⟨_, hv, rfl, fun _ _ => Iff.rfl, (fun h => by cases h), fun _ => ⟨begins_at (by decide), begins_at (by decide)⟩,
        (fun h => by cases h)⟩
    | true =>
      cases s with
      | any => exact ⟨.dash x y z t .any false, hv, rfl, fun _ _ => Iff.rfl, (fun h => by cases h),
          fun _ => ⟨begins_at (by decide), begins_at (by decide)⟩, (fun h => by cases h)⟩
      | suited => exact ⟨_, hv, rfl, fun _ _ => Iff.rfl, (fun _ h => by cases h), (fun h => by cases h), fun _ _ => begins_at (by decide)⟩
      | offsuit => exact ⟨_, hv, rfl, fun _ _ => Iff.rfl, (fun _ h => by cases h), (fun h => by cases h), fun _ _ => begins_at (by decide)⟩

/-- C76: a token with a weight of any number of digits.  Its hands get the weight modulo 2^32, if that is at most 100, and else 100. -/
theorem C76_weight {lower : List Char → List Char} {text : List Char} {s : Shape} {ds : List Nat} {hands : List Combo} (hv : s.Valid)
    (hne : ds ≠ []) (hd : ∀ d ∈ ds, d < 10) (hr : text ≠ "random".toList) (ht : lower text = s.text ++ '@' :: ds.map digitChar)
    (h : fromStringR lower text = .ok hands) (a b w : Nat) :
    (⟨a, b, w⟩ : Combo) ∈ hands ↔
      b < a ∧ a < 52 ∧ s.denotes a b ∧ w = if decimal ds % 2 ^ 32 ≤ 100 then decimal ds % 2 ^ 32 else 100 := by
  have hnil : ¬ BeginsDigit [] := fun ⟨_, _, h⟩ => by cases h
  have hval : decimal (tenDigits (decimal ds % 2 ^ 32)) = decimal ds % 2 ^ 32 := tenDigits_decimal (Nat.mod_lt _ (by norm_num))
  have hred : Reduced (lower text) (s.text ++ '@' :: ((tenDigits (decimal ds % 2 ^ 32)).map digitChar ++ [])) := by
    rw [ht]
    refine Reduced.prefix (shape_not_at hv) ?_
    have := Reduced.weight (ds := ds) (ds' := tenDigits (decimal ds % 2 ^ 32)) hd (tenDigits_lt _) hval
      (by simp [hne, tenDigits]) hnil hnil .nil
    simpa using this
  obtain ⟨s', hv', htext, hden, hfol⟩ := shape_followed hv ((tenDigits (decimal ds % 2 ^ 32)).map digitChar ++ [])
  have one : ∀ (t : Token), t.shape = s' → (HasWeight [t] a b w ↔ s.denotes a b ∧ w = t.percent) := by
    intro t e
    unfold HasWeight
    constructor
    · rintro ⟨i, hi, h1, h2, _⟩
      obtain rfl : i = 0 := by simp at hi; omega
      exact ⟨(hden a b).1 (e ▸ h1), h2.symm⟩
    · rintro ⟨h1, h2⟩
      exact ⟨0, by simp, by simpa [e] using (hden a b).2 h1, h2.symm, fun j hj => by omega⟩
  by_cases h100 : decimal ds % 2 ^ 32 ≤ 100
  · rw [if_pos h100]
    have hreads : Reads (s.text ++ '@' :: ((tenDigits (decimal ds % 2 ^ 32)).map digitChar ++ []))
        [⟨s', some (tenDigits (decimal ds % 2 ^ 32))⟩] [] := by
      refine .last _ _ _ ⟨hv', ?_, ?_, hfol, hnil⟩ (fun h => by cases h)
      · intro ds' e
        obtain rfl := Option.some.inj e
        exact ⟨tenDigits_lt _, by rw [hval]; exact h100⟩
      · rw [htext]; rfl
    rw [C76_meaning hr h hred hreads, one _ rfl]
    simp only [Token.percent, hval]
  · rw [if_neg h100]
    have hreads : Reads (s.text ++ '@' :: ((tenDigits (decimal ds % 2 ^ 32)).map digitChar ++ [])) [⟨s', none⟩]
        ('@' :: ((tenDigits (decimal ds % 2 ^ 32)).map digitChar ++ [])) := by
      refine .last _ _ _ ⟨hv', (fun ds' e => by cases e), by rw [htext]; rfl, hfol, Or.inr ⟨_, [], rfl, tenDigits_lt _, hnil, ?_⟩⟩
        (begins_at (by decide))
      rw [hval]; omega
    rw [C76_meaning hr h hred hreads, one _ rfl]
    rfl

/-- C76, finding: a weight of 4294967300 per cent is read as 4 per cent, whereas one of 300 per cent is ignored; the checked build
panics. -/
theorem C76_wraps : fromStringR id "aa@4294967300".toList = fromString id "aa@4".toList ∧
    fromString id "aa@4294967300".toList = .error .overflow ∧ fromStringR id "aa@300".toList = fromString id "aa".toList ∧
    fromString id "aa@4".toList ≠ fromString id "aa".toList := by
  have h4 : fromString id "aa@4".toList =
      .ok [⟨49, 48, 4⟩, ⟨50, 48, 4⟩, ⟨50, 49, 4⟩, ⟨51, 48, 4⟩, ⟨51, 49, 4⟩, ⟨51, 50, 4⟩] := by
    refine fromString_of_parse (by decide)
      (l := [⟨49, 48, 4⟩, ⟨50, 48, 4⟩, ⟨51, 48, 4⟩, ⟨50, 49, 4⟩, ⟨51, 49, 4⟩, ⟨51, 50, 4⟩]) ?_ ?_ ?_ ?_ ?_ <;> decide +kernel
  have h100 : fromString id "aa".toList =
      .ok [⟨49, 48, 100⟩, ⟨50, 48, 100⟩, ⟨50, 49, 100⟩, ⟨51, 48, 100⟩, ⟨51, 49, 100⟩, ⟨51, 50, 100⟩] := by
    refine fromString_of_parse (by decide)
      (l := [⟨49, 48, 100⟩, ⟨50, 48, 100⟩, ⟨51, 48, 100⟩, ⟨50, 49, 100⟩, ⟨51, 49, 100⟩, ⟨51, 50, 100⟩]) ?_ ?_ ?_ ?_ ?_ <;> decide +kernel
  have e1 : parseLoopR (id "aa@4294967300".toList ++ [' ']) ((id "aa@4294967300".toList ++ [' ']).length + 1) 0 [] =
      parseLoop (id "aa@4".toList ++ [' ']) ((id "aa@4".toList ++ [' ']).length + 1) 0 [] := by decide +kernel
  have e2 : parseLoopR (id "aa@300".toList ++ [' ']) ((id "aa@300".toList ++ [' ']).length + 1) 0 [] =
      parseLoop (id "aa".toList ++ [' ']) ((id "aa".toList ++ [' ']).length + 1) 0 [] := by decide +kernel
  refine ⟨?_, by decide +kernel, ?_, by rw [h4, h100]; decide⟩
  · unfold fromStringR fromString
    rw [if_neg (by decide), if_neg (by decide)]
    simp only [e1]
  · unfold fromStringR fromString
    rw [if_neg (by decide), if_neg (by decide)]
    simp only [e2]

/-! ## Cards -/

/-- C76: `card_from_str` never panics; it rejects exactly the texts that do not have two characters. -/
theorem C76_card_total (s : List Char) :
    (∃ c < 256, cardFromStrR s = .ok c ∧ s.length = 2) ∨ (cardFromStrR s = .err ∧ s.length ≠ 2) := by
  match s with
  | [] => exact Or.inr ⟨rfl, by simp⟩
  | [_] => exact Or.inr ⟨rfl, by simp⟩
  | [r, u] => exact Or.inl ⟨_, Nat.mod_lt _ (by norm_num), rfl, rfl⟩
  | _ :: _ :: _ :: _ => exact Or.inr ⟨rfl, by simp⟩

theorem cardFromCharsR_same {s : List Char} {p : Nat × List Char} (h : cardFromChars s = .ok p) : cardFromCharsR s = .ok p := by
  match s with
  | [] => cases h
  | [_] => cases h
  | r :: u :: rest =>
    simp only [cardFromChars] at h
    split_ifs at h with hf
    rw [cardFromCharsR, Nat.mod_eq_of_lt hf.1, Nat.mod_eq_of_lt hf.2]
    exact h

/-- C76: where the checked build accepts a card, the release build reads the same card. -/
theorem C76_card_same {s : List Char} {c : Nat} (h : cardFromStr s = .ok c) : cardFromStrR s = .ok c := by
  unfold cardFromStr at h
  unfold cardFromStrR
  cases hp : cardFromChars s with
  | panic p => rw [hp] at h; cases h
  | err => rw [hp] at h; cases h
  | ok v => rw [hp] at h; rw [cardFromCharsR_same hp]; exact h

/-- C76: in particular the name of a card is read as the card. -/
theorem C76_card_name {s : List Char} {c : Nat} (hc : c < 52) (h : IsName s c) : cardFromStrR s = .ok c :=
  C76_card_same (C15_accepts hc h)

theorem cardFromStrR_two (r u : Char) : cardFromStrR [r, u] = .ok ((4 * charToRank r.toLower % 2 ^ 8 + charToSuit u) % 2 ^ 8) := rfl

/-- C76, finding: a rank above 2 with a wrong suit letter is read as the diamond of the rank below, without any error; the checked build
panics. -/
theorem C76_card_wrong {r u : Char} {k : Nat} (hk : k < 13) (h0 : 0 < k) (hr : r.toLower = rankLetter k) (hu : ∀ s < 4, u ≠ suitLetter s) :
    cardFromStrR [r, u] = cardFromStr [rankLetter (k - 1), 'd'] ∧ cardFromStrR [r, u] = .ok (4 * (k - 1) + 3) ∧
    cardFromStr [r, u] = .panic .overflow := by
  have e1 : charToRank r.toLower = k := by rw [hr]; exact charToRank_letter hk
  have e2 : charToSuit u = 255 := by
    rcases charToSuit_letters u with h | ⟨s, hs, h⟩
    · exact h
    · exact absurd h (hu s hs)
  have e3 : cardFromStr [rankLetter (k - 1), 'd'] = .ok (4 * (k - 1) + 3) := by
    have : ∀ k < 13, cardFromStr [rankLetter k, 'd'] = .ok (4 * k + 3) := by decide +kernel
    exact this (k - 1) (by omega)
  have e4 : cardFromStrR [r, u] = .ok (4 * (k - 1) + 3) := by
    rw [cardFromStrR_two, e1, e2]
    congr 1
    omega
  refine ⟨e4.trans e3.symm, e4, ?_⟩
  unfold cardFromStr
  simp only [cardFromChars, e1, e2]
  rw [if_neg (by omega)]
  rfl

/-- C76: the other texts of two characters give numbers that are no cards: 255 for a 2 with a wrong suit letter, 252 to 255 for a
wrong rank letter with a suit letter, 251 if both are wrong. -/
theorem C76_card_no_card {r u : Char} :
    (r.toLower = '2' → (∀ s < 4, u ≠ suitLetter s) → cardFromStrR [r, u] = .ok 255) ∧
    (∀ s < 4, (∀ k < 13, r.toLower ≠ rankLetter k) → u = suitLetter s → cardFromStrR [r, u] = .ok (252 + s)) ∧
    ((∀ k < 13, r.toLower ≠ rankLetter k) → (∀ s < 4, u ≠ suitLetter s) → cardFromStrR [r, u] = .ok 251) := by
  have hu : (∀ s < 4, u ≠ suitLetter s) → charToSuit u = 255 := by
    intro hu
    rcases charToSuit_letters u with h | ⟨s, hs, h⟩
    · exact h
    · exact absurd h (hu s hs)
  have hr : (∀ k < 13, r.toLower ≠ rankLetter k) → charToRank r.toLower = 255 := by
    intro hr
    rcases charToRank_letters r.toLower with h | ⟨s, hs, h⟩
    · exact h
    · exact absurd h (hr s hs)
  refine ⟨fun h1 h2 => ?_, fun s hs h1 h2 => ?_, fun h1 h2 => ?_⟩
  · rw [cardFromStrR_two, hu h2, h1]; decide
  · rw [cardFromStrR_two, hr h1, h2, charToSuit_letter hs]
    congr 1
    omega
  · rw [cardFromStrR_two, hu h2, hr h1]; decide

/-- C76: the number read is a card exactly if the first character is a rank and the second is a suit letter or the rank is above 2. -/
theorem C76_card_below {r u : Char} {c : Nat} (h : cardFromStrR [r, u] = .ok c) :
    c < 52 ↔ ∃ k < 13, r.toLower = rankLetter k ∧ ((∃ s < 4, u = suitLetter s) ∨ 0 < k) := by
  rw [cardFromStrR_two] at h
  obtain rfl := Outcome.ok.inj h
  have hinj : ∀ k < 13, ∀ m < 13, rankLetter k = rankLetter m → k = m := by decide
  rcases charToRank_letters r.toLower with e1 | ⟨k, hk, hr⟩
  · have hno : ¬ ∃ k < 13, r.toLower = rankLetter k ∧ ((∃ s < 4, u = suitLetter s) ∨ 0 < k) := by
      rintro ⟨k, hk, hr, _⟩
      rw [hr, charToRank_letter hk] at e1
      omega
    refine ⟨fun h => absurd h ?_, fun h => absurd h hno⟩
    rw [e1]
    rcases charToSuit_cases u with e2 | ⟨e2, _⟩ <;> omega
  · rw [hr, charToRank_letter hk]
    rcases charToSuit_letters u with e2 | ⟨s, hs, hu⟩
    · rw [e2]
      have hno : ¬ ∃ s < 4, u = suitLetter s := by
        rintro ⟨s, hs, hu⟩
        rw [hu, charToSuit_letter hs] at e2
        omega
      constructor
      · intro h
        exact ⟨k, hk, rfl, Or.inr (by omega)⟩
      · rintro ⟨m, hm, e, h⟩
        have := hinj k hk m hm e
        rcases h with h | h
        · exact absurd h hno
        · omega
    · rw [hu, charToSuit_letter hs]
      refine ⟨fun _ => ⟨k, hk, rfl, Or.inl ⟨s, hs, rfl⟩⟩, fun _ => by omega⟩

/-- C76: `flop_from_str` never panics and gives three different numbers in ascending order. -/
theorem C76_flop_total (ws : Char → Bool) (s : List Char) :
    flopFromStrR ws s = .err ∨ ∃ x y z, flopFromStrR ws s = .ok [x, y, z] ∧ x < y ∧ y < z ∧ z < 256 := by
  have key : ∀ l, cardFromCharsR l = .err ∨ ∃ c rest, cardFromCharsR l = .ok (c, rest) ∧ c < 256 := by
    intro l
    match l with
    | [] => exact Or.inl rfl
    | [_] => exact Or.inl rfl
    | _ :: _ :: _ => exact Or.inr ⟨_, _, rfl, Nat.mod_lt _ (by norm_num)⟩
  unfold flopFromStrR
  rcases key s with h | ⟨a, r1, h, ha⟩
  · rw [h]; exact Or.inl rfl
  rw [h]
  simp only [Outcome.andThen]
  rcases key (r1.dropWhile ws) with h | ⟨b, r2, h, hb⟩
  · rw [h]; exact Or.inl rfl
  rw [h]
  simp only
  rcases key (r2.dropWhile ws) with h | ⟨c, r3, h, hc⟩
  · rw [h]; exact Or.inl rfl
  rw [h]
  simp only
  obtain ⟨x, y, z, hm, hxy, hyz, hp⟩ := sorted_three a b c
  rw [hm]
  split_ifs with h1 h2
  · exact Or.inl rfl
  · exact Or.inl rfl
  · simp at h2
    refine Or.inr ⟨x, y, z, rfl, by omega, by omega, ?_⟩
    have : z ∈ [a, b, c] := hp.mem_iff.1 (by simp)
    simp at this
    omega

/-- C76: where the checked build accepts a flop, the release build reads the same flop. -/
theorem C76_flop_same {ws : Char → Bool} {s : List Char} {f : List Nat} (h : flopFromStr ws s = .ok f) : flopFromStrR ws s = .ok f := by
  unfold flopFromStr at h
  unfold flopFromStrR
  cases h1 : cardFromChars s with
  | panic p => rw [h1] at h; cases h
  | err => rw [h1] at h; cases h
  | ok v1 =>
    rw [h1] at h
    rw [cardFromCharsR_same h1]
    simp only [Outcome.andThen] at h ⊢
    cases h2 : cardFromChars (v1.2.dropWhile ws) with
    | panic p => rw [h2] at h; cases h
    | err => rw [h2] at h; cases h
    | ok v2 =>
      rw [h2] at h
      rw [cardFromCharsR_same h2]
      simp only at h ⊢
      cases h3 : cardFromChars (v2.2.dropWhile ws) with
      | panic p => rw [h3] at h; cases h
      | err => rw [h3] at h; cases h
      | ok v3 =>
        rw [h3] at h
        rw [cardFromCharsR_same h3]
        exact h

/-- C76, finding: three ranks with wrong suit letters are accepted as a flop of three diamonds of the ranks below. -/
theorem C76_flop_wrong {ws : Char → Bool} {k m n : Nat} (hk : 0 < k) (hkm : k < m) (hmn : m < n) (hn : n < 13) {u v w : Char}
    (hu : ∀ s < 4, u ≠ suitLetter s) (hv : ∀ s < 4, v ≠ suitLetter s) (hw : ∀ s < 4, w ≠ suitLetter s) (hs : SaneSpace ws) :
    flopFromStrR ws [rankLetter k, u, rankLetter m, v, rankLetter n, w] = .ok [4 * k - 1, 4 * m - 1, 4 * n - 1] := by
  have hsuit : ∀ u : Char, (∀ s < 4, u ≠ suitLetter s) → charToSuit u = 255 := by
    intro u hu
    rcases charToSuit_letters u with h | ⟨s, hs, h⟩
    · exact h
    · exact absurd h (hu s hs)
  have hlow : ∀ k < 13, (rankLetter k).toLower = rankLetter k := by decide
  have card : ∀ (k : Nat) (u : Char) (rest : List Char), 0 < k → k < 13 → (∀ s < 4, u ≠ suitLetter s) →
      cardFromCharsR (rankLetter k :: u :: rest) = .ok (4 * k - 1, rest) := by
    intro k u rest h1 h2 h3
    rw [cardFromCharsR, hlow k h2, charToRank_letter h2, hsuit u h3]
    congr 2
    omega
  have hspace : ∀ k < 13, ws (rankLetter k) = false := by
    intro k hk
    cases hv : ws (rankLetter k) with
    | false => rfl
    | true => exact absurd (hlow k hk) (hs _ k hv hk)
  have hdrop : ∀ (k : Nat) (rest : List Char), k < 13 → (rankLetter k :: rest).dropWhile ws = rankLetter k :: rest := by
    intro k rest hk
    rw [List.dropWhile_cons, hspace k hk]
    rfl
  unfold flopFromStrR
  rw [card k u _ hk (by omega) hu]
  simp only [Outcome.andThen]
  rw [hdrop m _ (by omega), card m v _ (by omega) (by omega) hv]
  simp only
  rw [hdrop n _ hn, card n w _ (by omega) hn hw]
  have hsort : [4 * k - 1, 4 * m - 1, 4 * n - 1].mergeSort (· ≤ ·) = [4 * k - 1, 4 * m - 1, 4 * n - 1] := by
    apply List.mergeSort_of_pairwise
    simp
    omega
  simp only [hsort]
  rw [if_neg (by simp), if_neg]
  simp
  omega

example : cardFromStrR "3x".toList = .ok 3 ∧ cardFromStr "2d".toList = .ok 3 ∧ cardFromStrR "xs".toList = .ok 252 ∧
    cardFromStrR "xx".toList = .ok 251 ∧ cardFromStrR "Asd".toList = .err := by decide +kernel

example : Reduced "kk,aa@4294967300,qq".toList "kk,aa@4,qq".toList := by
  have := Reduced.weight (ds := [4, 2, 9, 4, 9, 6, 7, 3, 0, 0]) (ds' := [4]) (l := ",qq".toList) (l' := ",qq".toList) (by decide) (by decide)
    (by decide +kernel) (by decide) (by unfold BeginsDigit Begins; decide) (by unfold BeginsDigit Begins; decide)
    (.other (by decide) (.other (by decide) (.other (by decide) .nil)))
  exact Reduced.prefix (p := "kk,aa".toList) (by decide) this

end Pokers
