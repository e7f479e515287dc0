import Verif.Proofs.Decode
import Verif.Props.Range
import Verif.Props.Evaluator
/-!
What is known about the simulator when the enumeration starts.
-/
namespace Pokers
open CombinedRange Sim Spec

/-! ### Every combo of a combined range consists of hands of its players' ranges -/

/-- The hole cards of a combo of `cr`, one per player of `cr`. -/
def holesOf (cr : CombinedRange) (c : JointCombo) : List Hole := (List.range cr.playerCount).map c.holeCards

/-- The combo `c` of the combined range `cr` holds hands of the players' ranges, without a common card, and its mask and
evaluator hands are those of the hole cards. -/
structure ComboOk (ranges : List (List Combo)) (cr : CombinedRange) (c : JointCombo) : Prop where
  mem : ∀ j < cr.playerCount, ∃ k ∈ ranges.getD (cr.players j) [],
    c.holeCards j = toHole k ∧ c.hands j = Hand.fromHoleCards k.c1 k.c2
  mask : c.mask = maskOr 0 (holesOf cr c)
  legal : (dealt (holesOf cr c)).Nodup

theorem maskOr_zero (u : Nat) (d : List Hole) : maskOr u d = u ||| maskOr 0 d := by
  apply Nat.eq_of_testBit_eq
  intro i
  rw [Nat.testBit_or, maskOr_testBit, maskOr_testBit, Nat.zero_testBit, Bool.false_or]

theorem maskOr_append (u : Nat) (a b : List Hole) : maskOr u (a ++ b) = maskOr (maskOr u a) b := by
  unfold maskOr; rw [List.foldl_append]

theorem holesOf_join (a b : CombinedRange) (c1 c2 : JointCombo) :
    holesOf (join a b) (joinCombo a.playerCount b.playerCount c1 c2) = holesOf a c1 ++ holesOf b c2 := by
  show (List.range (a.playerCount + b.playerCount)).map _ = _
  rw [range_add_eq, List.map_append, List.map_map]
  congr 1
  · apply List.map_congr_left
    intro k hk
    rw [joinCombo_hole, if_pos (List.mem_range.1 hk)]
  · apply List.map_congr_left
    intro k hk
    have := List.mem_range.1 hk
    rw [Function.comp, joinCombo_hole, if_neg (by omega), if_pos (by omega)]
    congr 1; omega

theorem foldl_update_range {α : Type} (f : Nat → α) (n : Nat) (a : Nat → α) (k : Nat) :
    (List.range n).foldl (fun a i => Function.update a i (f i)) a k = if k < n then f k else a k := by
  have := copyLoop_eq a f 0 n k
  unfold copyLoop at this
  simp only [Nat.zero_add, Nat.zero_le, true_and, Nat.sub_zero] at this
  exact this

theorem joinCombo_hands (n1 n2 : Nat) (c1 c2 : JointCombo) (k : Nat) (hk : k < n1 + n2) :
    (joinCombo n1 n2 c1 c2).hands k =
      Hand.fromHoleCards ((joinCombo n1 n2 c1 c2).holeCards k).1 ((joinCombo n1 n2 c1 c2).holeCards k).2.1 := by
  exact (foldl_update_range _ (n1 + n2) _ k).trans (if_pos hk)

theorem mask_disjoint {a b : List Hole} (h : maskOr 0 a &&& maskOr 0 b = 0) : (dealt a).Disjoint (dealt b) := by
  intro c ha hb
  have h1 := (and_eq_zero_iff _ _).1 h c (by rw [maskOr_testBit]; simpa using ha)
  rw [maskOr_testBit, Nat.zero_testBit, Bool.false_or, decide_eq_false_iff_not] at h1
  exact h1 hb

theorem ComboOk.join {ranges : List (List Combo)} {a b : CombinedRange} {c1 c2 : JointCombo} (h1 : ComboOk ranges a c1)
    (h2 : ComboOk ranges b c2) (hd : c1.mask &&& c2.mask = 0) :
    ComboOk ranges (join a b) (joinCombo a.playerCount b.playerCount c1 c2) := by
  refine ⟨?_, ?_, ?_⟩
  · intro j hj
    have hj' : j < a.playerCount + b.playerCount := hj
    rw [join_players, joinCombo_hands _ _ _ _ _ hj', joinCombo_hole]
    by_cases hja : j < a.playerCount
    · obtain ⟨k, hk, he, _⟩ := h1.mem j hja
      rw [if_pos hja, if_pos hja]
      exact ⟨k, hk, he, by rw [he]; rfl⟩
    · obtain ⟨k, hk, he, _⟩ := h2.mem (j - a.playerCount) (by omega)
      rw [if_neg hja, if_neg hja, if_pos hj', if_pos hj']
      exact ⟨k, hk, he, by rw [he]; rfl⟩
  · rw [holesOf_join, maskOr_append, maskOr_zero, ← h1.mask, ← h2.mask]
    rfl
  · rw [holesOf_join, dealt, List.flatMap_append]
    rw [h1.mask, h2.mask] at hd
    exact List.Nodup.append h1.legal h2.legal (mask_disjoint hd)

theorem comboOk_fromRange {ranges : List (List Combo)} (hwf : ∀ r ∈ ranges, WfRange r) {k : Nat} (hk : k < ranges.length) :
    ∀ c ∈ (fromRange ranges[k] k).combos, ComboOk ranges (fromRange ranges[k] k) c := by
  intro c hc
  obtain ⟨r, hr, rfl⟩ := List.mem_map.1 hc
  refine ⟨?_, ?_, ?_⟩
  · intro j hj
    have : j = 0 := by have : j < 1 := hj; omega
    subst this
    refine ⟨r, ?_, ?_, ?_⟩
    · show r ∈ ranges.getD k []
      rw [List.getD_eq_getElem _ _ hk]; exact hr
    · rfl
    · rfl
  · show bitsOf (toHole r) = 0 ||| bitsOf (toHole r)
    rw [Nat.zero_or]
  · have := (hwf _ (List.getElem_mem hk) r hr).2.2
    show ([r.c1, r.c2] : List Nat).Nodup
    simpa using this

/-- All combos of the combined range are as they should be. -/
def CrOk (ranges : List (List Combo)) (cr : CombinedRange) : Prop := ∀ c ∈ cr.combos, ComboOk ranges cr c

theorem CrOk.join {ranges : List (List Combo)} {a b : CombinedRange} (h1 : CrOk ranges a) (h2 : CrOk ranges b) :
    CrOk ranges (join a b) := by
  intro c hc
  obtain ⟨c1, hc1, hc2⟩ := List.mem_flatMap.1 hc
  obtain ⟨c2, hc2, he⟩ := List.mem_filterMap.1 hc2
  by_cases hd : c1.mask &&& c2.mask = 0
  · rw [if_neg (not_not.2 hd)] at he
    rw [← Option.some.inj he]
    exact (h1 c1 hc1).join (h2 c2 hc2) hd
  · rw [if_pos hd] at he
    cases he

theorem singles_ok (all : List (List Combo)) (hwf : ∀ r ∈ all, WfRange r) : ∀ (ranges : List (List Combo)) (k : Nat),
    all.drop k = ranges → ∀ cr ∈ singles k ranges, CrOk all cr := by
  intro ranges
  induction ranges with
  | nil => intro k _ cr h; simp [singles] at h
  | cons r rs ih =>
    intro k hk cr h
    have hlen : k < all.length := by
      by_contra hcon
      rw [List.drop_eq_nil_of_le (by omega)] at hk
      cases hk
    rw [List.drop_eq_getElem_cons hlen] at hk
    injection hk with h1 h2
    rcases List.mem_cons.1 h with rfl | h
    · rw [← h1]; exact comboOk_fromRange hwf hlen
    · exact ih (k + 1) h2 cr h

theorem fromRanges_ok (ranges : List (List Combo)) (hwf : ∀ r ∈ ranges, WfRange r) :
    ∀ cr ∈ fromRanges ranges, CrOk ranges cr := by
  rw [fromRanges_eq]
  apply combineLoop_ind (fun crs => ∀ cr ∈ crs, CrOk ranges cr)
  · intro xs ys h hx cr hcr; exact hx cr (h.mem_iff.2 hcr)
  · intro a b rest h cr hcr
    rcases List.mem_cons.1 hcr with rfl | hcr
    · exact (h a (by simp)).join (h b (by simp))
    · exact h cr (by simp [hcr])
  · exact singles_ok ranges hwf ranges 0 rfl

/-- If the range of a player is empty, so is the combined range of that player. -/
theorem fromRanges_empty (ranges : List (List Combo)) (hwf : ∀ r ∈ ranges, WfRange r) {p : Nat} (hp : p < ranges.length)
    (he : ranges[p] = []) : ∃ cr ∈ fromRanges ranges, cr.size = 0 := by
  have hm : p ∈ (fromRanges ranges).flatMap playersOf :=
    (fromRanges_players ranges).mem_iff.2 (List.mem_range.2 hp)
  obtain ⟨cr, hcr, hpc⟩ := List.mem_flatMap.1 hm
  obtain ⟨j, hj, hpj⟩ := List.mem_map.1 hpc
  refine ⟨cr, hcr, ?_⟩
  rw [fromRanges_size ranges cr hcr, List.length_eq_zero_iff]
  by_contra hne
  obtain ⟨c, hc⟩ := List.exists_mem_of_ne_nil _ hne
  obtain ⟨k, hk, _⟩ := (fromRanges_ok ranges hwf cr hcr c hc).mem j (List.mem_range.1 hj)
  rw [hpj, List.getD_eq_getElem _ _ hp, he] at hk
  simp at hk

/-! ### Card removal -/

/-- The hands of the ranges, for the specification. -/
def specRanges (ranges : List (List Combo)) : List (List WHand) := ranges.map (·.map toHole)

/-- The mask `m` is a number of the type `u64`; the bits 52 to 63 stand for no card. -/
def CardMask (m : Nat) : Prop := m < 2 ^ 64

/-- The mask `m` contains only cards of the deck. -/
def DeckMask (m : Nat) : Prop := m < 2 ^ 52

theorem DeckMask.mask {m : Nat} (h : DeckMask m) : CardMask m := Nat.lt_of_lt_of_le h (by decide)

theorem mem_maskCards {m c : Nat} (hc : c < 52) : c ∈ maskCards m ↔ m.testBit c = true := by
  unfold maskCards
  rw [List.mem_filter, List.mem_range]
  exact ⟨fun h => h.2, fun h => ⟨hc, h⟩⟩

theorem maskCards_isCards (m : Nat) : IsCards (maskCards m) := by
  refine ⟨List.nodup_range.filter _, fun c hc => ?_⟩
  unfold maskCards at hc
  rw [List.mem_filter, List.mem_range] at hc
  exact hc.1

theorem blocked_iff (b d : Nat) : ∀ c < 52, (b ||| d).testBit c = true ↔ c ∈ maskCards b ++ maskCards d := by
  intro c hc
  rw [Nat.testBit_or, Bool.or_eq_true, List.mem_append, mem_maskCards hc, mem_maskCards hc]

/-- Removing the hands that contain a blocked card does not change the legal deals. -/
theorem choices_filter (p : WHand → Bool) : ∀ (rs : List (List WHand)),
    choices (rs.map fun r => r.filter p) = (choices rs).filter fun d => d.all p := by
  intro rs
  induction rs with
  | nil => rfl
  | cons r rs ih =>
    rw [List.map_cons, choices, choices, ih, List.filter_flatMap]
    induction r with
    | nil => rfl
    | cons h r ihr =>
      rw [List.flatMap_cons, ← ihr, List.filter_map]
      by_cases hp : p h = true
      · rw [List.filter_cons_of_pos hp, List.flatMap_cons]
        congr 2
        apply List.filter_congr
        intro d _
        simp [hp]
      · rw [List.filter_cons_of_neg hp]
        have : List.filter ((fun d => List.all d p) ∘ fun x => h :: x) (choices rs) = [] := by
          apply List.filter_eq_nil_iff.2
          intro d _
          simp [hp]
        rw [this]; rfl

theorem removeConflicting_map {r : List Combo} (hr : WfRange r) (b d : Nat) :
    (removeConflictingCombos r b d).map toHole =
      (r.map toHole).filter fun h => decide (h.1 ∉ maskCards b ++ maskCards d ∧ h.2.1 ∉ maskCards b ++ maskCards d) := by
  rw [List.filter_map, C23_filter]
  congr 1
  apply List.filter_congr
  intro c hc
  obtain ⟨h1, h2, _⟩ := hr c hc
  simp only [Function.comp, toHole, List.mem_append, mem_maskCards h1, mem_maskCards h2]
  rw [Bool.eq_iff_iff, decide_eq_true_iff]
  cases b.testBit c.c1 <;> cases b.testBit c.c2 <;> cases d.testBit c.c1 <;> cases d.testBit c.c2 <;> simp

theorem deals_filter {ranges : List (List Combo)} (hwf : ∀ r ∈ ranges, WfRange r) (b d : Nat) :
    deals (specRanges (ranges.map fun h => removeConflictingCombos h b d)) (maskCards b ++ maskCards d) =
      deals (specRanges ranges) (maskCards b ++ maskCards d) := by
  have h1 : specRanges (ranges.map fun h => removeConflictingCombos h b d) =
      (specRanges ranges).map fun r => r.filter fun h =>
        decide (h.1 ∉ maskCards b ++ maskCards d ∧ h.2.1 ∉ maskCards b ++ maskCards d) := by
    unfold specRanges
    rw [List.map_map, List.map_map]
    apply List.map_congr_left
    intro r hr
    exact removeConflicting_map (hwf r hr) b d
  rw [h1, deals, choices_filter, List.filter_filter, deals]
  apply List.filter_congr
  intro x _
  rw [Bool.eq_iff_iff, Bool.and_eq_true, decide_eq_true_iff, List.all_eq_true]
  constructor
  · exact fun h => h.1
  · intro h
    refine ⟨h, fun w hw => ?_⟩
    rw [decide_eq_true_iff]
    exact ⟨h.2 _ (List.mem_flatMap.2 ⟨w, hw, by simp [cardsOf]⟩), h.2 _ (List.mem_flatMap.2 ⟨w, hw, by simp [cardsOf]⟩)⟩

theorem wf_filter {ranges : List (List Combo)} (hwf : ∀ r ∈ ranges, WfRange r) (b d : Nat) :
    ∀ r ∈ ranges.map fun h => removeConflictingCombos h b d, WfRange r := by
  intro r hr
  obtain ⟨r', hr', rfl⟩ := List.mem_map.1 hr
  intro c hc
  exact hwf r' hr' c (List.mem_filter.1 hc).1

/-! ### The fixed board -/

theorem fixedBoard_eq (m : Nat) : Hand.fromBitMask m = ofCards (maskCards m) :=
  C03_from_bit_mask (maskCards_isCards m) (by
    intro c hc
    unfold maskCards
    rw [List.mem_filter, List.mem_range]
    exact ⟨fun h => ⟨hc, h⟩, fun h => h.2⟩)

theorem maskCards_length_le (m : Nat) : (maskCards m).length ≤ countOnes m := by
  unfold maskCards countOnes
  have : List.range 64 = List.range 52 ++ (List.range 12).map (52 + ·) := range_add_eq 52 12
  rw [this, List.filter_append, List.length_append]
  omega

theorem fixedBoard_count {m : Nat} (h : countOnes m ≤ 5) : (Hand.fromBitMask m).count = (maskCards m).length := by
  have hl := maskCards_length_le m
  rw [fixedBoard_eq]
  exact (C08_counters (maskCards_isCards m) (by omega)
    (fun s _ => List.countP_le_length.trans (by omega))).1

theorem maskCards_length {m : Nat} (h : DeckMask m) : (maskCards m).length = countOnes m := by
  unfold maskCards countOnes
  have : List.range 64 = List.range 52 ++ (List.range 12).map (52 + ·) := range_add_eq 52 12
  rw [this, List.filter_append, List.length_append]
  have h2 : ((List.range 12).map (52 + ·)).filter (fun i => m.testBit i) = [] := by
    apply List.filter_eq_nil_iff.2
    intro c hc
    obtain ⟨k, _, rfl⟩ := List.mem_map.1 hc
    rw [Nat.testBit_lt_two_pow (Nat.lt_of_lt_of_le h (Nat.pow_le_pow_right (by decide) (by omega)))]
    simp
  rw [h2]; rfl

end Pokers
