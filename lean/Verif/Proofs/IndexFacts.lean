import Verif.Proofs.IndexTables
import Mathlib.Data.List.Nodup
import Mathlib.Tactic.IntervalCases
/-! Consequences of the whole-table computations of `IndexTables.lean`. -/
namespace Pokers
open Spec

theorem mem_rankPairs {h l : Nat} : (h, l) ∈ rankPairs ↔ l < h ∧ h < 13 := by
  unfold rankPairs ranksDesc
  simp only [List.mem_flatMap, List.mem_map, List.mem_filter, decide_eq_true_eq, Prod.mk.injEq]
  constructor
  · rintro ⟨a, ha, b, ⟨_, hb⟩, rfl, rfl⟩
    refine ⟨hb, ?_⟩
    simp only [List.mem_cons, List.not_mem_nil, or_false] at ha
    omega
  · rintro ⟨h1, h2⟩
    refine ⟨h, ?_, l, ⟨?_, h1⟩, rfl, rfl⟩
    · simp only [List.mem_cons, List.not_mem_nil, or_false]; omega
    · simp only [List.mem_cons, List.not_mem_nil, or_false]; omega

theorem mem_ranksDesc {r : Nat} : r ∈ ranksDesc ↔ r < 13 := by
  unfold ranksDesc
  simp only [List.mem_cons, List.not_mem_nil, or_false]
  omega

/-- The combo a pair of cards belongs to (better card first, for pairs lower suit first). -/
theorem mem_allHands {a b : Nat} : (a, b) ∈ allHands ↔ a < 52 ∧ b < 52 ∧
    (b / 4 < a / 4 ∨ (a / 4 = b / 4 ∧ a % 4 < b % 4)) := by
  unfold allHands preCombos
  simp only [List.mem_flatMap, List.mem_append, List.mem_map]
  constructor
  · rintro ⟨c, (⟨r, hr, rfl⟩ | ⟨⟨h, l⟩, hp, rfl⟩) | ⟨⟨h, l⟩, hp, rfl⟩, hm⟩
    · rw [mem_ranksDesc] at hr
      simp only [PreCombo.hands, List.map_cons, List.map_nil, List.mem_cons, List.not_mem_nil, or_false, Prod.mk.injEq] at hm
      omega
    · rw [mem_rankPairs] at hp
      simp only [PreCombo.hands, List.map_cons, List.map_nil, List.mem_cons, List.not_mem_nil, or_false, Prod.mk.injEq] at hm
      omega
    · rw [mem_rankPairs] at hp
      simp only [PreCombo.hands, List.map_cons, List.map_nil, List.mem_cons, List.not_mem_nil, or_false, Prod.mk.injEq] at hm
      omega
  · rintro ⟨ha, hb, h⟩
    have hda := Nat.div_add_mod a 4
    have hdb := Nat.div_add_mod b 4
    have hsa := Nat.mod_lt a (show 4 > 0 by decide)
    have hsb := Nat.mod_lt b (show 4 > 0 by decide)
    generalize a / 4 = ra at *
    generalize b / 4 = rb at *
    generalize a % 4 = sa at *
    generalize b % 4 = sb at *
    rcases h with h | ⟨rfl, h2⟩
    · by_cases hs : sa = sb
      · subst hs
        refine ⟨_, Or.inl (Or.inr ⟨(ra, rb), mem_rankPairs.2 ⟨h, by omega⟩, rfl⟩), ?_⟩
        simp only [PreCombo.hands, List.map_cons, List.map_nil, List.mem_cons, List.not_mem_nil, or_false, Prod.mk.injEq]
        subst hda hdb
        interval_cases sa <;> simp
      · refine ⟨_, Or.inr ⟨(ra, rb), mem_rankPairs.2 ⟨h, by omega⟩, rfl⟩, ?_⟩
        simp only [PreCombo.hands, List.map_cons, List.map_nil, List.mem_cons, List.not_mem_nil, or_false, Prod.mk.injEq]
        subst hda hdb
        interval_cases sa <;> interval_cases sb <;> simp at hs <;> simp
    · refine ⟨_, Or.inl (Or.inl ⟨ra, mem_ranksDesc.2 (by omega), rfl⟩), ?_⟩
      simp only [PreCombo.hands, List.map_cons, List.map_nil, List.mem_cons, List.not_mem_nil, or_false, Prod.mk.injEq]
      subst hda hdb
      interval_cases sb <;> interval_cases sa <;> simp

theorem mem_allHands_or {a b : Nat} (ha : a < 52) (hb : b < 52) (hab : a ≠ b) : (a, b) ∈ allHands ∨ (b, a) ∈ allHands := by
  rw [mem_allHands, mem_allHands]
  omega

theorem allHands_length : allHands.length = 1326 := by
  have := congrArg List.length card_index_all
  simpa using this

theorem cardMapIndex_comm (a b : Nat) : cardMapIndex a b = cardMapIndex b a := by
  unfold cardMapIndex
  rcases Nat.lt_trichotomy a b with h | rfl | h
  · simp only [if_neg (Nat.not_lt.2 h.le), gt_iff_lt, h, if_true]
  · rfl
  · simp only [if_neg (Nat.not_lt.2 h.le), gt_iff_lt, h, if_true]

theorem getCardIndex_comm (a b : Nat) : getCardIndex a b = getCardIndex b a := by
  unfold getCardIndex; rw [cardMapIndex_comm]

/-- Position `i` of the canonical list has index `i`. -/
theorem getCardIndex_get {i : Nat} (hi : i < allHands.length) :
    getCardIndex (allHands[i]).1 (allHands[i]).2 = i := by
  have h := card_index_all
  have h' : (allHands.map (fun p => getCardIndex p.1 p.2))[i]? = (List.range 1326)[i]? := by rw [h]
  rw [allHands_length] at hi
  rw [List.getElem?_map, List.getElem?_eq_getElem (by rw [allHands_length]; exact hi), List.getElem?_range hi] at h'
  simpa using h'

theorem Hand_getCardIndex_get {i : Nat} (hi : i < allHands.length) :
    (Hand.fromHoleCards (allHands[i]).1 (allHands[i]).2).getCardIndex = i := by
  have h := hand_index_all
  have h' : (allHands.map (fun p => (Hand.fromHoleCards p.1 p.2).getCardIndex))[i]? = (List.range 1326)[i]? := by rw [h]
  rw [allHands_length] at hi
  rw [List.getElem?_map, List.getElem?_eq_getElem (by rw [allHands_length]; exact hi), List.getElem?_range hi] at h'
  simpa using h'

/-- A hand is at its own index in the canonical list, in one of the two orders. -/
theorem allHands_getCardIndex {a b : Nat} (ha : a < 52) (hb : b < 52) (hab : a ≠ b) :
    getCardIndex a b < 1326 ∧
    (allHands[getCardIndex a b]? = some (a, b) ∨ allHands[getCardIndex a b]? = some (b, a)) := by
  rcases mem_allHands_or ha hb hab with h | h
  · obtain ⟨i, hi, he⟩ := List.getElem_of_mem h
    have := getCardIndex_get hi
    rw [he] at this
    simp only at this
    rw [this]
    exact ⟨by rw [← allHands_length]; exact hi, Or.inl (by rw [List.getElem?_eq_getElem hi, he])⟩
  · obtain ⟨i, hi, he⟩ := List.getElem_of_mem h
    have := getCardIndex_get hi
    rw [he] at this
    simp only at this
    rw [getCardIndex_comm, this]
    exact ⟨by rw [← allHands_length]; exact hi, Or.inr (by rw [List.getElem?_eq_getElem hi, he])⟩

theorem handIndex_eq {a b : Nat} (ha : a < 52) (hb : b < 52) (hab : a ≠ b) :
    (Hand.fromHoleCards a b).getCardIndex = getCardIndex a b := by
  rcases mem_allHands_or ha hb hab with h | h
  · obtain ⟨i, hi, he⟩ := List.getElem_of_mem h
    have h1 := getCardIndex_get hi
    have h2 := Hand_getCardIndex_get hi
    rw [he] at h1 h2
    rw [h1, h2]
  · obtain ⟨i, hi, he⟩ := List.getElem_of_mem h
    have h1 := getCardIndex_get hi
    have h2 := Hand_getCardIndex_get hi
    rw [he] at h1 h2
    rw [getCardIndex_comm, show Hand.fromHoleCards a b = Hand.fromHoleCards b a from Hand.add_comm' _ _, h1, h2]

theorem card_index_bounds {a b : Nat} (ha : a < 52) (hb : b < 52) (hab : a ≠ b) :
    cardMapIndex a b < 1326 ∧
    (63 - leadingZeros 64 (Hand.fromHoleCards a b).mask |||
      trailingZeros (Hand.fromHoleCards a b).mask <<< 6) < 3837 := by
  have h1 := List.all_eq_true.1 map_index_all
  have h2 := List.all_eq_true.1 mask_index_all
  rcases mem_allHands_or ha hb hab with h | h
  · have e1 := h1 _ h
    have e2 := h2 _ h
    rw [Nat.blt_eq] at e1 e2
    exact ⟨e1, e2⟩
  · have e1 := h1 _ h
    have e2 := h2 _ h
    rw [Nat.blt_eq] at e1 e2
    rw [cardMapIndex_comm, show Hand.fromHoleCards a b = Hand.fromHoleCards b a from Hand.add_comm' _ _]
    exact ⟨e1, e2⟩

theorem allHands_nodup : allHands.Nodup := by
  have : (allHands.map (fun p => getCardIndex p.1 p.2)).Nodup := by rw [card_index_all]; exact List.nodup_range
  exact this.of_map _

/-! The maps from names to positions. -/

theorem foldl_mapInsert (l : List (List Char)) (n : Nat) (m : List Char → Option Nat) (s : List Char)
    (hn : n ≤ l.length) :
    (List.range n).foldl (fun m i => mapInsert m (l.getD i []) i) m s =
      (((List.range n).filter (fun i => decide (l.getD i [] = s))).getLast?).or (m s) := by
  induction n with
  | zero => simp
  | succ n ih =>
    rw [List.range_succ, List.foldl_append, List.foldl_cons, List.foldl_nil, List.filter_append, mapInsert, ih (by omega)]
    by_cases h : s = l.getD n []
    · subst h; simp
    · rw [if_neg h]
      have : decide (l.getD n [] = s) = false := by rw [decide_eq_false_iff_not]; exact fun e => h e.symm
      rw [List.filter_cons, this]
      simp

theorem mapInsert_spec (l : List (List Char)) (hl : l.Nodup) (n : Nat) (hn : l.length = n) (s : List Char) (i : Nat) :
    (List.range n).foldl (fun m i => mapInsert m (l.getD i []) i) (fun _ => none) s = some i ↔ l[i]? = some s := by
  rw [foldl_mapInsert l n _ s (by omega), Option.or_none]
  have huniq : ∀ i < n, ∀ j < n, l.getD i [] = l.getD j [] → i = j := by
    intro i hi j hj he
    rw [List.getD_eq_getElem _ _ (by omega), List.getD_eq_getElem _ _ (by omega)] at he
    exact (List.Nodup.getElem_inj_iff hl).1 he
  have hsingle : ∀ i < n, l.getD i [] = s → (List.range n).filter (fun i => decide (l.getD i [] = s)) = [i] := by
    intro i hi he
    apply List.perm_singleton.1
    rw [List.perm_ext_iff_of_nodup (List.nodup_range.filter _) (List.nodup_singleton i)]
    intro j
    rw [List.mem_filter, List.mem_range, List.mem_singleton, decide_eq_true_eq]
    constructor
    · rintro ⟨hj, hje⟩
      exact huniq j hj i hi (hje.trans he.symm)
    · rintro rfl
      exact ⟨hi, he⟩
  constructor
  · intro h
    have hm := List.mem_of_getLast? h
    rw [List.mem_filter, List.mem_range, decide_eq_true_eq] at hm
    have hi : i < l.length := by omega
    rw [List.getD_eq_getElem _ _ hi] at hm
    rw [List.getElem?_eq_getElem hi, hm.2]
  · intro h
    obtain ⟨hi, he⟩ := List.getElem?_eq_some_iff.1 h
    rw [hsingle i (by omega) (by rw [List.getD_eq_getElem _ _ hi]; exact he)]
    rfl

theorem cardName_inj {a b : Nat} (ha : a < 52) (hb : b < 52) (h : cardName a = cardName b) : a = b := by
  have key : ∀ a < 52, ∀ b < 52, cardName a = cardName b → a = b := by decide +kernel
  exact key a ha b hb h

theorem handName_inj {p q : Nat × Nat} (hp : p ∈ allHands) (hq : q ∈ allHands) (h : handName p = handName q) : p = q := by
  obtain ⟨a, b⟩ := p
  obtain ⟨c, d⟩ := q
  rw [mem_allHands] at hp hq
  have h1 : cardName a = cardName c := by
    have := congrArg (List.take 2) h
    simpa [handName, cardName] using this
  have h2 : cardName b = cardName d := by
    have := congrArg (List.drop 2) h
    simpa [handName, cardName] using this
  rw [cardName_inj hp.1 hq.1 h1, cardName_inj hp.2.1 hq.2.1 h2]

theorem index_to_hand_nodup : INDEX_TO_HAND.Nodup := by
  rw [index_to_hand_eq]
  exact List.Nodup.map_on (fun p hp q hq h => handName_inj hp hq h) allHands_nodup

theorem index_to_hand_length : INDEX_TO_HAND.length = 1326 := by
  rw [index_to_hand_eq, List.length_map, allHands_length]

theorem preCombos_length : preCombos.length = 169 := by decide +kernel

theorem index_to_combo_length : INDEX_TO_COMBO.length = 169 := by
  rw [index_to_combo_eq, List.length_map, preCombos_length]

theorem index_to_combo_nodup : INDEX_TO_COMBO.Nodup := by
  rw [index_to_combo_eq]
  decide +kernel

end Pokers
