import Verif.Proofs.IndexFacts
/-!
# Hand and combo indices (C06 second part, C10, C11, C12)
-/
namespace Pokers
open Spec

/-! ## C06, continued -/

/-- The reads of the two index functions are inside their tables. -/
theorem C06_card_index_in_bounds {a b : Nat} (ha : a < 52) (hb : b < 52) (hab : a ≠ b) :
    cardMapIndex a b < CARD_MAP.len ∧
    (63 - leadingZeros 64 (Hand.fromHoleCards a b).mask ||| trailingZeros (Hand.fromHoleCards a b).mask <<< 6) < MASK_MAP.len :=
  card_index_bounds ha hb hab

/-! ## C10 -/

/-- `get_card_index` is symmetric and a bijection between the unordered pairs of different cards and the indices below 1326. -/
theorem C10_card_index_bijective :
    (∀ a b, getCardIndex a b = getCardIndex b a) ∧
    (∀ a < 52, ∀ b < 52, a ≠ b → getCardIndex a b < 1326) ∧
    (∀ a < 52, ∀ b < 52, ∀ c < 52, ∀ d < 52, a ≠ b → c ≠ d → getCardIndex a b = getCardIndex c d →
      (a = c ∧ b = d) ∨ (a = d ∧ b = c)) ∧
    (∀ i < 1326, ∃ a < 52, ∃ b < 52, a ≠ b ∧ getCardIndex a b = i) := by
  refine ⟨getCardIndex_comm, fun a ha b hb hab => (allHands_getCardIndex ha hb hab).1, ?_, ?_⟩
  · intro a ha b hb c hc d hd hab hcd he
    have h1 := (allHands_getCardIndex ha hb hab).2
    have h2 := (allHands_getCardIndex hc hd hcd).2
    rw [he] at h1
    rcases h1 with h1 | h1 <;> rcases h2 with h2 | h2 <;> rw [h1] at h2 <;>
      simp only [Option.some.injEq, Prod.mk.injEq] at h2 <;> simp [h2.1, h2.2]
  · intro i hi
    have hi' : i < allHands.length := by rw [allHands_length]; exact hi
    have hm := List.getElem_mem hi'
    have := mem_allHands.1 (show ((allHands[i]).1, (allHands[i]).2) ∈ allHands from hm)
    exact ⟨_, this.1, _, this.2.1, by intro h; rw [h] at this; omega, getCardIndex_get hi'⟩

/-! ## C11 -/

/-- The index computed from the bit mask of a two-card hand is the index computed from the two card numbers. -/
theorem C11_hand_index {a b : Nat} (ha : a < 52) (hb : b < 52) (hab : a ≠ b) :
    (Hand.fromHoleCards a b).getCardIndex = getCardIndex a b := handIndex_eq ha hb hab

/-- The same for a hand built by adding the two cards to the default hand. -/
theorem C11_hand_index_ofCards {a b : Nat} (ha : a < 52) (hb : b < 52) (hab : a ≠ b) :
    (ofCards [a, b]).getCardIndex = getCardIndex a b := by
  rw [← handIndex_eq ha hb hab]
  have : (ofCards [a, b]).mask = (Hand.fromHoleCards a b).mask := by
    simp [ofCards, Hand.fromHoleCards, Hand.add_def, Hand.default]
  unfold Hand.getCardIndex
  rw [this]

example : getCardIndex 51 0 = getCardIndex 0 51 ∧ (Hand.fromHoleCards 0 51).getCardIndex = getCardIndex 51 0 :=
  ⟨C10_card_index_bijective.1 _ _, (C11_hand_index (by decide) (by decide) (by decide)).trans (getCardIndex_comm _ _)⟩

/-! ## C12 -/

/-- `INDEX_TO_HAND` lists the names of the 1326 hands in the order of `get_card_index`: looking a hand up by its index gives
its name, better card first. -/
theorem C12_index_to_hand {a b : Nat} (ha : a < 52) (hb : b < 52) (hab : a ≠ b) :
    INDEX_TO_HAND[getCardIndex a b]? = some (handName (a, b)) ∨ INDEX_TO_HAND[getCardIndex a b]? = some (handName (b, a)) := by
  rw [index_to_hand_eq, List.getElem?_map]
  rcases (allHands_getCardIndex ha hb hab).2 with h | h <;> rw [h] <;> simp

/-- The better card (for pairs, the one of the lower numbered suit) is named first. -/
theorem C12_index_to_hand_order {a b : Nat} (ha : a < 52) (hb : b < 52)
    (h : Spec.rank b < Spec.rank a ∨ Spec.rank a = Spec.rank b ∧ Spec.suit a < Spec.suit b) :
    INDEX_TO_HAND[getCardIndex a b]? = some (handName (a, b)) := by
  have hm : (a, b) ∈ allHands := mem_allHands.2 ⟨ha, hb, h⟩
  obtain ⟨i, hi, he⟩ := List.getElem_of_mem hm
  have := getCardIndex_get hi
  rw [he] at this
  rw [index_to_hand_eq, List.getElem?_map, this, List.getElem?_eq_getElem hi, he]
  rfl

/-- `HAND_TO_INDEX` inverts `INDEX_TO_HAND`. -/
theorem C12_hand_to_index (s : List Char) (i : Nat) : HAND_TO_INDEX s = some i ↔ INDEX_TO_HAND[i]? = some s :=
  mapInsert_spec INDEX_TO_HAND index_to_hand_nodup 1326 index_to_hand_length s i

/-- `COMBO_TO_INDEX` inverts `INDEX_TO_COMBO`. -/
theorem C12_combo_to_index (s : List Char) (i : Nat) : COMBO_TO_INDEX s = some i ↔ INDEX_TO_COMBO[i]? = some s :=
  mapInsert_spec INDEX_TO_COMBO index_to_combo_nodup 169 index_to_combo_length s i

/-- `INDEX_TO_COMBO` lists the 169 preflop combos – pairs, suited, offsuit, best first. -/
theorem C12_index_to_combo : INDEX_TO_COMBO = preCombos.map PreCombo.name := index_to_combo_eq

/-- Where the hands of the `k`-th combo start: 13 blocks of 6 pairs, 78 blocks of 4 suited and 78 blocks of 12 offsuit hands. -/
def comboStart (k : Nat) : Nat := if k < 13 then 6 * k else if k < 91 then 78 + 4 * (k - 13) else 390 + 12 * (k - 91)

/-- The `k`-th block of 6/4/12 names in `INDEX_TO_HAND` consists of the names of the hands of the `k`-th combo. -/
theorem C12_blocks {k : Nat} (hk : k < preCombos.length) :
    (INDEX_TO_HAND.drop (comboStart k)).take (preCombos[k]).hands.length = (preCombos[k]).hands.map handName ∧
    comboStart k + (preCombos[k]).hands.length = comboStart (k + 1) := by
  have h1 : ∀ k < 169, ((allHands.drop (comboStart k)).take (preCombos.getD k ⟨0, 0, .pair⟩).hands.length
      = (preCombos.getD k ⟨0, 0, .pair⟩).hands ∧
      comboStart k + (preCombos.getD k ⟨0, 0, .pair⟩).hands.length = comboStart (k + 1)) := by decide +kernel
  have := h1 k (by rwa [preCombos_length] at hk)
  rw [List.getD_eq_getElem _ _ hk] at this
  rw [index_to_hand_eq, ← List.map_drop, ← List.map_take]
  exact ⟨by rw [this.1], this.2⟩

/-- The hands of a combo are exactly the hands with its two ranks and its suitedness. -/
theorem C12_combo_hands {k : Nat} (hk : k < preCombos.length) {a b : Nat} (h : (a, b) ∈ allHands) :
    (a, b) ∈ (preCombos[k]).hands ↔ Spec.rank a = (preCombos[k]).hi ∧ Spec.rank b = (preCombos[k]).lo ∧
      ((preCombos[k]).kind = .suited ↔ Spec.suit a = Spec.suit b) := by
  have hm := mem_allHands.1 h
  have hc : preCombos[k] ∈ preCombos := List.getElem_mem hk
  generalize preCombos[k] = c at hc
  have hkind : (c.kind = .pair ↔ c.hi = c.lo) ∧ c.hi < 13 ∧ c.lo ≤ c.hi := by
    unfold preCombos at hc
    simp only [List.mem_append, List.mem_map] at hc
    rcases hc with (⟨r, hr, rfl⟩ | ⟨⟨x, y⟩, hp, rfl⟩) | ⟨⟨x, y⟩, hp, rfl⟩
    · rw [mem_ranksDesc] at hr; simp; omega
    · rw [mem_rankPairs] at hp; simp; omega
    · rw [mem_rankPairs] at hp; simp; omega
  obtain ⟨hi, lo, kind⟩ := c
  simp only at hkind
  simp only [Spec.rank, Spec.suit]
  have hda := Nat.div_add_mod a 4
  have hdb := Nat.div_add_mod b 4
  have hsa := Nat.mod_lt a (show 4 > 0 by decide)
  have hsb := Nat.mod_lt b (show 4 > 0 by decide)
  generalize a / 4 = ra at *
  generalize b / 4 = rb at *
  generalize a % 4 = sa at *
  generalize b % 4 = sb at *
  clear h hc
  subst hda hdb
  have key : ∀ x y i, i < 4 → ∀ j, j < 4 → (4 * x + i = 4 * y + j ↔ x = y ∧ i = j) := by intros; omega
  cases kind <;>
    simp only [PreCombo.hands, List.map_cons, List.map_nil, List.mem_cons, List.not_mem_nil, or_false, Prod.mk.injEq] <;>
    interval_cases sa <;> interval_cases sb <;> simp at hkind hm ⊢ <;> omega

/-- Both name tables have the expected size and no duplicates. -/
theorem C12_sizes : INDEX_TO_HAND.length = 1326 ∧ INDEX_TO_HAND.Nodup ∧ INDEX_TO_COMBO.length = 169 ∧ INDEX_TO_COMBO.Nodup :=
  ⟨index_to_hand_length, index_to_hand_nodup, index_to_combo_length, index_to_combo_nodup⟩

example : INDEX_TO_HAND[getCardIndex 48 51]? = some "AsAd".toList :=
  C12_index_to_hand_order (by decide) (by decide) (by decide)
example : HAND_TO_INDEX "AsAd".toList = some (getCardIndex 48 51) :=
  (C12_hand_to_index _ _).2 (C12_index_to_hand_order (by decide) (by decide) (by decide))

/-- `Display` for a hand range prints the higher card number first, so a pair such as the one with suits hearts and
spades is printed as a string that is not a key of `HAND_TO_INDEX`. -/
theorem pair_reversed_not_a_key : HAND_TO_INDEX (handName (49, 48)) = none := by
  cases h : HAND_TO_INDEX (handName (49, 48)) with
  | none => rfl
  | some i =>
    rw [C12_hand_to_index, index_to_hand_eq, List.getElem?_map] at h
    cases hp : allHands[i]? with
    | none => rw [hp] at h; simp at h
    | some p =>
      rw [hp] at h
      simp only [Option.map_some, Option.some.injEq] at h
      have hm := List.mem_of_getElem? hp
      obtain ⟨c, d⟩ := p
      have hm' := mem_allHands.1 hm
      have h1 : cardName c = cardName 49 := by
        have := congrArg (List.take 2) h
        simpa [handName, cardName] using this
      have h2 : cardName d = cardName 48 := by
        have := congrArg (List.drop 2) h
        simpa [handName, cardName] using this
      have e1 := cardName_inj hm'.1 (by decide) h1
      have e2 := cardName_inj hm'.2.1 (by decide) h2
      subst e1 e2
      omega

end Pokers
