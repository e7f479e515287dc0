import Verif.Proofs.Run
/-!
# Weights, validity, categories and draw flags of the hands
-/
namespace Pokers
open Spec CombinedRange

/-! ## `get_draw` does not panic -/

theorem isFlush_count {x cs : List Nat} (hs : x.Sublist cs) (hf : isFlush x = true) :
    ∃ s < 4, 5 ≤ cs.countP (fun c => Spec.suit c = s) := by
  unfold isFlush at hf
  rw [Bool.and_eq_true, List.any_eq_true] at hf
  obtain ⟨h5, s, hs4, hall⟩ := hf
  have h5 : x.length = 5 := by simpa using h5
  refine ⟨s, by simp at hs4; omega, ?_⟩
  have h1 : x.countP (fun c => Spec.suit c = s) = 5 := by
    rw [List.countP_eq_length.2, h5]
    intro c hc
    rw [List.all_eq_true] at hall
    simpa using hall c hc
  rw [← h1]
  exact hs.countP_le

/-- A hand of category 6 (a flush) has five cards of one suit. -/
theorem flush_suit {cs : List Nat} (h : IsCards cs) (h2 : 2 ≤ cs.length) (h7 : cs.length ≤ 7) (h6 : (ofCards cs).evaluate >>> 12 = 6) :
    ∃ s < 4, 5 ≤ cs.countP (fun c => Spec.suit c = s) := by
  obtain ⟨⟨x, hx, hm⟩, hc⟩ := C02_category h h2 h7
  have hcat := (hc x hx hm).symm.trans h6
  have hsub : x.Sublist cs := (List.mem_sublistsLen.1 hx).1
  apply isFlush_count hsub
  by_contra hf
  have hf : isFlush x = false := by simpa using hf
  unfold category categoryOf at hcat
  rw [hf] at hcat
  simp only [Bool.and_false, Bool.false_eq_true, if_false] at hcat
  split_ifs at hcat <;> omega

theorem suits_le_length (cs : List Nat) (s : Nat) : cs.countP (fun c => Spec.suit c = s) ≤ cs.length := List.countP_le_length

/-- The category the simulator computes. -/
theorem categoryOfScore_eq {cs : List Nat} (h : IsCards cs) (h2 : 2 ≤ cs.length) (h7 : cs.length ≤ 7) :
    categoryOfScore (ofCards cs).evaluate + 1 = (ofCards cs).evaluate >>> 12 ∧ categoryOfScore (ofCards cs).evaluate < 9 := by
  have hr := C02_category_range h h2 h7
  unfold categoryOfScore HAND_CATEGORY_OFFSET
  rw [Nat.shiftRight_eq_div_pow] at hr ⊢
  rw [show (0x1000 : Nat) = 2 ^ 12 by norm_num, Nat.mod_eq_of_lt (by omega : (ofCards cs).evaluate / 2 ^ 12 < 2 ^ 8)]
  simp only
  rw [if_pos (by omega)]
  omega

/-- `get_draw` as called by the simulator does not panic. -/
theorem getDraw_isSome {board : List Nat} {a b : Nat} (h : IsCards (board ++ [a, b])) (h5 : board.length ≤ 5) :
    (getDraw (Hand.fromHoleCards a b) (ofCards board) (categoryOfScore (ofCards (board ++ [a, b])).evaluate)).isSome := by
  have hl : (board ++ [a, b]).length = board.length + 2 := by simp
  have hc := categoryOfScore_eq h (by omega) (by omega)
  unfold getDraw
  simp only
  split
  · rename_i hr
    rw [Option.isSome_map]
    have hp : Hand.fromHoleCards a b + ofCards board = ofCards (board ++ [a, b]) := by
      rw [Hand.add_comm', (C03_hole_cards board a b).1]
    rw [hp]
    obtain ⟨s, hs, hs5⟩ := flush_suit h (by omega) (by omega) (by omega)
    have hC := C08_counters h (by omega) (fun s _ => (suits_le_length _ s).trans (by omega))
    unfold nutFlush
    have hsome : ((List.range 4).find? (fun i => decide ((ofCards (board ++ [a, b])).suitCount i ≥ 5))).isSome := by
      rw [List.find?_isSome]
      refine ⟨s, List.mem_range.2 hs, ?_⟩
      rw [hC.2.1 s hs, decide_eq_true_iff]
      exact_mod_cast hs5
    obtain ⟨i, hi⟩ := Option.isSome_iff_exists.1 hsome
    rw [hi]
    simp only
    split_ifs <;> rfl
  · rfl

/-- The draw flags the simulator reports for a hand: those of `get_draw` for the category made with the board, and none on a
complete board. -/
def drawOf (board : List Nat) (a b : Nat) : Nat :=
  if board.length < 5 then
    (getDraw (Hand.fromHoleCards a b) (ofCards board) (categoryOfScore (ofCards (board ++ [a, b])).evaluate)).getD 0
  else 0

theorem countOnes_mask {cs : List Nat} (h : IsCards cs) : countOnes (ofCards cs).mask = cs.length := by
  have hbit : ∀ c < 52, (ofCards cs).mask.testBit (16 * (3 - c % 4) + c / 4) = decide (c ∈ cs) := by
    intro c hc
    have := mask_testBit h.2 (show c % 4 < 4 by omega) (show c / 4 < 16 by omega)
    rwa [show 4 * (c / 4) + c % 4 = c by omega] at this
  have hall : ∀ i < 64, (ofCards cs).mask.testBit i = decide (4 * (i % 16) + (3 - i / 16) ∈ cs) := by
    intro i hi
    have := mask_testBit h.2 (show 3 - i / 16 < 4 by omega) (show i % 16 < 16 by omega)
    rwa [show 16 * (3 - (3 - i / 16)) + i % 16 = i by omega] at this
  unfold countOnes
  have e : (List.range 64).filter (fun i => (ofCards cs).mask.testBit i) =
      (List.range 64).filter (fun i => decide (4 * (i % 16) + (3 - i / 16) ∈ cs)) := by
    apply List.filter_congr
    intro i hi
    exact hall i (List.mem_range.1 hi)
  rw [e]
  have hp : ((List.range 64).filter (fun i => decide (4 * (i % 16) + (3 - i / 16) ∈ cs))).map (fun i => 4 * (i % 16) + (3 - i / 16)) |>.Perm cs := by
    rw [List.perm_ext_iff_of_nodup _ h.1]
    · intro c
      rw [List.mem_map]
      constructor
      · rintro ⟨i, hi, rfl⟩
        exact of_decide_eq_true (List.mem_filter.1 hi).2
      · intro hc
        have := h.2 c hc
        refine ⟨16 * (3 - c % 4) + c / 4, ?_, by omega⟩
        rw [List.mem_filter, List.mem_range, decide_eq_true_iff]
        refine ⟨by omega, ?_⟩
        rwa [show 4 * ((16 * (3 - c % 4) + c / 4) % 16) + (3 - (16 * (3 - c % 4) + c / 4) / 16) = c by omega]
    · apply List.Nodup.map_on
      · intro x hx y hy hxy
        have := List.mem_range.1 (List.mem_filter.1 hx).1
        have := List.mem_range.1 (List.mem_filter.1 hy).1
        omega
      · exact List.nodup_range.filter _
  have := hp.length_eq
  rwa [List.length_map] at this

/-- The category and draw flags written by `set_ranks`. -/
theorem rankHand_eq {board : List Nat} {hand : Combo} (h : IsCards (board ++ [hand.c1, hand.c2])) (h5 : board.length ≤ 5)
    (u : UnitResults) : rankHand (ofCards board) hand u =
      some { u with rank := categoryOfScore (ofCards (board ++ [hand.c1, hand.c2])).evaluate, draw := drawOf board hand.c1 hand.c2 } := by
  have hb : IsCards board := ⟨(List.nodup_append.1 h.1).1, fun c hc => h.2 c (by simp [hc])⟩
  unfold rankHand drawOf
  simp only
  rw [countOnes_mask hb, (C03_hole_cards board hand.c1 hand.c2).1]
  by_cases hl : board.length < 5
  · rw [if_pos hl, if_pos hl]
    obtain ⟨dr, hdr⟩ := Option.isSome_iff_exists.1 (getDraw_isSome h h5)
    rw [hdr]
    rfl
  · rw [if_neg hl, if_neg hl]
    rfl

/-! ## Writing cells -/

/-- The cell of the hand `c` of player `p`. -/
def rowKey (p : Nat) (c : Combo) : Nat := NUM_HANDS * p + getCardIndex c.c1 c.c2

theorem foldl_update_apply {α β : Type} (key : α → Nat) (f : α → β → β) (L : List α) (g : Nat → β) (k : Nat) :
    (L.foldl (fun g a => Function.update g (key a) (f a (g (key a)))) g) k =
      (L.filter (fun a => key a = k)).foldl (fun u a => f a u) (g k) := by
  induction L generalizing g with
  | nil => rfl
  | cons a L ih =>
    rw [List.foldl_cons, ih, List.filter_cons]
    by_cases hk : key a = k
    · simp only [hk, decide_true, if_true, List.foldl_cons, Function.update_self]
    · simp only [hk, decide_false, Bool.false_eq_true, if_false]
      rw [Function.update_of_ne (Ne.symm hk)]

/-- Steps that work on single cells, one list of hands per player. -/
theorem zipIdx_foldl_apply {α β : Type} (step : Nat → α → (Nat → β) → Nat → β) (F : Nat → α → Nat → β → β)
    (hstep : ∀ i r g k, step i r g k = F i r k (g k)) (L : List α) (j : Nat) (g : Nat → β) (k : Nat) :
    ((L.zipIdx j).foldl (fun g x => step x.2 x.1 g) g) k = (L.zipIdx j).foldl (fun u x => F x.2 x.1 k u) (g k) := by
  induction L generalizing j g with
  | nil => rfl
  | cons r L ih =>
    rw [List.zipIdx_cons, List.foldl_cons, List.foldl_cons, ih, hstep]

theorem zipIdx_foldl_one {α β : Type} (F : Nat → α → β → β) (L : List α) (j p : Nat) (u : β) (hp : p < L.length)
    (hid : ∀ i r u, r ∈ L → i ≠ j + p → F i r u = u) : (L.zipIdx j).foldl (fun u x => F x.2 x.1 u) u = F (j + p) L[p] u := by
  induction L generalizing j p u with
  | nil => simp at hp
  | cons r L ih =>
    rw [List.zipIdx_cons, List.foldl_cons]
    cases p with
    | zero =>
      have : ∀ (L' : List α) j' u, (∀ r ∈ L', r ∈ L) → j < j' → (L'.zipIdx j').foldl (fun u x => F x.2 x.1 u) u = u := by
        intro L'
        induction L' with
        | nil => intros; rfl
        | cons r' L' ih' =>
          intro j' u hm hj
          rw [List.zipIdx_cons, List.foldl_cons, hid j' r' u (by simp [hm r' (by simp)]) (by omega)]
          exact ih' (j' + 1) u (fun r hr => hm r (by simp [hr])) (by omega)
      simp only [Nat.add_zero, List.getElem_cons_zero]
      exact this L (j + 1) _ (fun r hr => hr) (by omega)
    | succ p =>
      have h1 : F j r u = u := hid j r u (by simp) (by omega)
      simp only [h1, List.getElem_cons_succ]
      rw [ih (j + 1) p u (by simpa using hp) (fun i r' u' hr hi => hid i r' u' (by simp [hr]) (by omega))]
      congr 1
      omega

theorem zipIdx_foldl_none {α β : Type} (F : Nat → α → β → β) (L : List α) (j : Nat) (u : β)
    (hid : ∀ i r u, r ∈ L → j ≤ i → i < j + L.length → F i r u = u) : (L.zipIdx j).foldl (fun u x => F x.2 x.1 u) u = u := by
  induction L generalizing j u with
  | nil => rfl
  | cons r L ih =>
    rw [List.zipIdx_cons, List.foldl_cons, hid j r u (by simp) le_rfl (by simp)]
    exact ih (j + 1) u (fun i r' u' hr h1 h2 => hid i r' u' (by simp [hr]) (by omega) (by rw [List.length_cons]; omega))

/-- Cell `k` belongs to player `p`. -/
def InRow (p k : Nat) : Prop := NUM_HANDS * p ≤ k ∧ k < NUM_HANDS * p + NUM_HANDS

theorem inRow_inj {p q k : Nat} (h1 : InRow p k) (h2 : InRow q k) : p = q := by
  unfold InRow NUM_HANDS at *; omega

theorem rowKey_inRow {p : Nat} {c : Combo} (h : c.c1 < 52 ∧ c.c2 < 52 ∧ c.c1 ≠ c.c2) : InRow p (rowKey p c) := by
  have := C10_card_index_bijective.2.1 c.c1 h.1 c.c2 h.2.1 h.2.2
  unfold InRow rowKey NUM_HANDS
  omega

theorem filter_row {r : List Combo} (hr : WfRange r) {p q k : Nat} (hk : InRow p k) (hq : q ≠ p) :
    r.filter (fun c => rowKey q c = k) = [] := by
  rw [List.filter_eq_nil_iff]
  intro c hc
  rw [decide_eq_true_iff]
  rintro rfl
  exact hq (inRow_inj (rowKey_inRow (hr c hc)) hk)

/-- The hands of a range that are the pair of cards `a`, `b`. -/
theorem rowKey_eq {p a b : Nat} (ha : a < 52) (hb : b < 52) (hab : a ≠ b) {c : Combo} (h : c.c1 < 52 ∧ c.c2 < 52 ∧ c.c1 ≠ c.c2) :
    rowKey p c = NUM_HANDS * p + getCardIndex a b ↔ (c.c1 = a ∧ c.c2 = b) ∨ (c.c1 = b ∧ c.c2 = a) := by
  unfold rowKey
  constructor
  · intro he
    exact C10_card_index_bijective.2.2.1 _ h.1 _ h.2.1 _ ha _ hb h.2.2 hab (by omega)
  · rintro (⟨h1, h2⟩ | ⟨h1, h2⟩)
    · rw [h1, h2]
    · rw [h1, h2, C10_card_index_bijective.1]

/-! ## `set_ranks` -/

/-- Write the category and the draw flags of a hand. -/
def putRank (board : List Nat) (c : Combo) (u : UnitResults) : UnitResults :=
  { u with rank := categoryOfScore (ofCards (board ++ [c.c1, c.c2])).evaluate, draw := drawOf board c.c1 c.c2 }

/-- The effect of `set_ranks` on one cell. -/
def rankCell (board : List Nat) (p : Nat) (r : List Combo) (k : Nat) (u : UnitResults) : UnitResults :=
  (r.filter (fun c => rowKey p c = k)).foldl (fun u c => putRank board c u) u

theorem setRanks_eq {ranges : List (List Combo)} {m : Nat} (h5 : (maskCards m).length ≤ 5)
    (hok : ∀ r ∈ ranges, ∀ c ∈ r, IsCards (maskCards m ++ [c.c1, c.c2])) (hr : Nat → UnitResults) :
    setRanks ranges m hr = some fun k => ranges.zipIdx.foldl (fun u x => rankCell (maskCards m) x.2 x.1 k u) (hr k) := by
  have e : setRanks ranges m hr = some (ranges.zipIdx.foldl (fun hr x => x.1.foldl (fun g c =>
      Function.update g (rowKey x.2 c) (putRank (maskCards m) c (g (rowKey x.2 c)))) hr) hr) := by
    unfold setRanks
    simp only
    rw [fixedBoard_eq]
    have inner : ∀ (i : Nat) (r : List Combo), (∀ c ∈ r, IsCards (maskCards m ++ [c.c1, c.c2])) → ∀ g : Nat → UnitResults,
        r.foldlM (fun hr (hand : Combo) =>
          (rankHand (ofCards (maskCards m)) hand (hr (NUM_HANDS * i + getCardIndex hand.c1 hand.c2))).map
            (Function.update hr (NUM_HANDS * i + getCardIndex hand.c1 hand.c2))) g =
        some (r.foldl (fun g c => Function.update g (rowKey i c) (putRank (maskCards m) c (g (rowKey i c)))) g) := by
      intro i r
      induction r with
      | nil => intros; rfl
      | cons c r ih =>
        intro hc g
        rw [List.foldlM_cons, rankHand_eq (hc c (by simp)) h5, List.foldl_cons]
        exact ih (fun c' hc' => hc c' (by simp [hc'])) _
    have outer : ∀ (l : List (List Combo × Nat)), (∀ x ∈ l, ∀ c ∈ x.1, IsCards (maskCards m ++ [c.c1, c.c2])) → ∀ g : Nat → UnitResults,
        l.foldlM (fun hr (x : List Combo × Nat) => x.1.foldlM (fun hr (hand : Combo) =>
          (rankHand (ofCards (maskCards m)) hand (hr (NUM_HANDS * x.2 + getCardIndex hand.c1 hand.c2))).map
            (Function.update hr (NUM_HANDS * x.2 + getCardIndex hand.c1 hand.c2))) hr) g =
        some (l.foldl (fun hr x => x.1.foldl (fun g c => Function.update g (rowKey x.2 c) (putRank (maskCards m) c (g (rowKey x.2 c)))) hr) g) := by
      intro l
      induction l with
      | nil => intros; rfl
      | cons x l ih =>
        intro hc g
        rw [List.foldlM_cons, inner x.2 x.1 (hc x (by simp)), List.foldl_cons]
        exact ih (fun y hy => hc y (by simp [hy])) _
    refine outer _ (fun x hx => hok x.1 ?_) hr
    have := List.mem_zipIdx hx
    exact this.2.2 ▸ List.getElem_mem _
  rw [e]
  congr 1
  funext k
  exact zipIdx_foldl_apply (fun i r g => r.foldl (fun g c =>
      Function.update g (rowKey i c) (putRank (maskCards m) c (g (rowKey i c)))) g)
    (rankCell (maskCards m)) (fun i r g k => foldl_update_apply (rowKey i) (putRank (maskCards m)) r g k) ranges 0 hr k

theorem drawOf_comm (board : List Nat) (a b : Nat) : drawOf board a b = drawOf board b a := by
  unfold drawOf
  rw [(C03_hole_cards board a b).2.2, ofCards_perm (show (board ++ [a, b]).Perm (board ++ [b, a]) from (List.Perm.swap b a []).append_left board)]

theorem putRank_congr {board : List Nat} {c d : Combo} (h : (c.c1 = d.c1 ∧ c.c2 = d.c2) ∨ (c.c1 = d.c2 ∧ c.c2 = d.c1)) :
    putRank board c = putRank board d := by
  funext u
  unfold putRank
  rcases h with ⟨h1, h2⟩ | ⟨h1, h2⟩
  · rw [h1, h2]
  · rw [h1, h2, drawOf_comm, ofCards_perm (show (board ++ [d.c2, d.c1]).Perm (board ++ [d.c1, d.c2]) from (List.Perm.swap _ _ []).append_left board)]

theorem foldl_same {α β : Type} (f : α → β → β) (g : β → β) (hg : ∀ u, g (g u) = g u) (L : List α) (hL : ∀ a ∈ L, f a = g) (hne : L ≠ [])
    (u : β) : L.foldl (fun u a => f a u) u = g u := by
  cases L with
  | nil => exact absurd rfl hne
  | cons a L =>
    rw [List.foldl_cons, hL a (by simp)]
    have : ∀ (L : List α), (∀ a ∈ L, f a = g) → L.foldl (fun u a => f a u) (g u) = g u := by
      intro L
      induction L with
      | nil => intros; rfl
      | cons b L ih =>
        intro h
        rw [List.foldl_cons, h b (by simp), hg]
        exact ih (fun a ha => h a (by simp [ha]))
    exact this L (fun a ha => hL a (by simp [ha]))

theorem rankCell_mem {board : List Nat} {r : List Combo} (hr : WfRange r) {p : Nat} {c : Combo} (hc : c ∈ r) (u : UnitResults) :
    rankCell board p r (rowKey p c) u = putRank board c u := by
  unfold rankCell
  apply foldl_same (putRank board) (putRank board c) (fun _ => rfl)
  · intro a ha
    obtain ⟨ha1, ha2⟩ := List.mem_filter.1 ha
    rw [decide_eq_true_iff] at ha2
    have hcw := hr c hc
    exact putRank_congr ((rowKey_eq hcw.1 hcw.2.1 hcw.2.2 (hr a ha1)).1 ha2)
  · intro h0
    have : c ∈ r.filter (fun c' => rowKey p c' = rowKey p c) := List.mem_filter.2 ⟨hc, by simp⟩
    rw [h0] at this
    simp at this

/-- A value computed cell by cell: only the player of the cell matters. -/
theorem rows_apply {α β : Type} (F : Nat → α → Nat → β → β) (L : List α) {p k : Nat} (hp : p < L.length)
    (hid : ∀ i r u, r ∈ L → i ≠ p → F i r k u = u) (u : β) : L.zipIdx.foldl (fun u x => F x.2 x.1 k u) u = F p L[p] k u := by
  have := zipIdx_foldl_one (fun i r u => F i r k u) L 0 p u hp (fun i r u hr hi => hid i r u hr (by omega))
  simpa using this

/-- What `set_ranks` writes. -/
theorem setRanks_spec {ranges : List (List Combo)} (hwf : ∀ r ∈ ranges, WfRange r) {m : Nat} (h5 : (maskCards m).length ≤ 5)
    (hok : ∀ r ∈ ranges, ∀ c ∈ r, IsCards (maskCards m ++ [c.c1, c.c2])) (hr : Nat → UnitResults) :
    ∃ hr', setRanks ranges m hr = some hr' ∧ ∀ (p : Nat) (hp : p < ranges.length),
      (∀ c ∈ ranges[p], hr' (rowKey p c) = putRank (maskCards m) c (hr (rowKey p c))) ∧
      (∀ k, InRow p k → (∀ c ∈ ranges[p], rowKey p c ≠ k) → hr' k = hr k) := by
  refine ⟨_, setRanks_eq h5 hok hr, fun p hp => ?_⟩
  have hrow : ∀ k, InRow p k → ranges.zipIdx.foldl (fun u x => rankCell (maskCards m) x.2 x.1 k u) (hr k) =
      rankCell (maskCards m) p ranges[p] k (hr k) := by
    intro k hk
    apply rows_apply (rankCell (maskCards m)) ranges hp
    intro i r u hr hi
    unfold rankCell
    rw [filter_row (hwf r hr) hk hi]
    rfl
  have hwp := hwf _ (List.getElem_mem hp)
  refine ⟨fun c hc => ?_, fun k hk hno => ?_⟩
  · rw [hrow _ (rowKey_inRow (hwp c hc)), rankCell_mem hwp hc]
  · rw [hrow k hk]
    unfold rankCell
    rw [List.filter_eq_nil_iff.2 (fun c hc => by rw [decide_eq_true_iff]; exact hno c hc)]
    rfl

/-! ## `save_hand_weights` and `fix_hand_weights` -/

/-- Every hand of the range has weight 100. -/
def allFull (r : List Combo) : Bool := r.all fun c => c.w == 100

/-- Writing weight and validity. -/
def putWeight (c : Combo) (u : UnitResults) : UnitResults := { u with weight := c.w, valid := true }

/-- Writing a constant weight to a valid hand. -/
def constWeight (v : Nat) (_ : Combo) (u : UnitResults) : UnitResults := if u.valid then { u with weight := v } else u

theorem saveInner' (i : Nat) (step : (Nat → UnitResults) × Bool × Nat → Combo → (Nat → UnitResults) × Bool × Nat)
    (hstep : ∀ hr check flag c, step (hr, check, flag) c = (Function.update hr (rowKey i c) (putWeight c (hr (rowKey i c))),
      check && (c.w == 100), if check && !(c.w == 100) then flag ^^^ (1 <<< i) else flag)) (r : List Combo) :
    ∀ (hr : Nat → UnitResults) (check : Bool) (flag : Nat), r.foldl step (hr, check, flag) =
    (r.foldl (fun g c => Function.update g (rowKey i c) (putWeight c (g (rowKey i c)))) hr, check && allFull r,
      if check && !allFull r then flag ^^^ (1 <<< i) else flag) := by
  induction r with
  | nil => intro hr check flag; cases check <;> rfl
  | cons c r ih =>
    intro hr check flag
    rw [List.foldl_cons, List.foldl_cons, hstep, ih]
    have ha : allFull (c :: r) = (c.w == 100 && allFull r) := rfl
    rw [ha]
    cases check <;> cases (c.w == 100) <;> cases allFull r <;> rfl

theorem saveInner (i : Nat) (r : List Combo) (hr : Nat → UnitResults) (check : Bool) (flag : Nat) :
    r.foldl (fun (hr, check, flag) (hand : Combo) =>
      let k := NUM_HANDS * i + getCardIndex hand.c1 hand.c2
      let u : UnitResults := { hr k with weight := hand.w, valid := true }
      let hr := Function.update hr k u
      if check && u.valid && u.weight != 100 then (hr, false, flag ^^^ (1 <<< i)) else (hr, check, flag)) (hr, check, flag) =
    (r.foldl (fun g c => Function.update g (rowKey i c) (putWeight c (g (rowKey i c)))) hr, check && allFull r,
      if check && !allFull r then flag ^^^ (1 <<< i) else flag) := by
  apply saveInner'
  intro hr check flag c
  have h : (c.w != 100) = !(c.w == 100) := rfl
  simp only [h, Bool.and_true]
  cases check <;> cases (c.w == 100) <;> rfl

theorem constFold (i v : Nat) (r : List Combo) (hr : Nat → UnitResults) :
    r.foldl (fun hr (hand : Combo) =>
        let k := NUM_HANDS * i + getCardIndex hand.c1 hand.c2
        if (hr k).valid then Function.update hr k { hr k with weight := v } else hr) hr =
    r.foldl (fun g c => Function.update g (rowKey i c) (constWeight v c (g (rowKey i c)))) hr := by
  congr 1
  funext g c
  unfold constWeight rowKey
  simp only
  split
  · rfl
  · rw [Function.update_eq_self]

/-- The effect of `save_hand_weights` on one cell. -/
def saveCell (p : Nat) (r : List Combo) (k : Nat) (u : UnitResults) : UnitResults :=
  let u := (r.filter (fun c => rowKey p c = k)).foldl (fun u c => putWeight c u) u
  if allFull r then (r.filter (fun c => rowKey p c = k)).foldl (fun u c => constWeight 1 c u) u else u

/-- The effect of `save_hand_weights` on the flags. -/
def saveFlag (p : Nat) (r : List Combo) (flag : Nat) : Nat :=
  if !allFull r then (flag ||| (1 <<< p)) ^^^ (1 <<< p) else flag ||| (1 <<< p)

theorem saveHandWeights_eq (ranges : List (List Combo)) (hr : Nat → UnitResults) :
    saveHandWeights ranges hr = ((fun k => ranges.zipIdx.foldl (fun u x => saveCell x.2 x.1 k u) (hr k)),
      ranges.zipIdx.foldl (fun f x => saveFlag x.2 x.1 f) 0) := by
  have step : ∀ (i : Nat) (r : List Combo) (hr : Nat → UnitResults) (flag : Nat),
      (let flag := flag ||| (1 <<< i)
       let x := r.foldl (fun (hr, check, flag) (hand : Combo) =>
        let k := NUM_HANDS * i + getCardIndex hand.c1 hand.c2
        let u : UnitResults := { hr k with weight := hand.w, valid := true }
        let hr := Function.update hr k u
        if check && u.valid && u.weight != 100 then (hr, false, flag ^^^ (1 <<< i)) else (hr, check, flag))
        (hr, true, flag)
       let hr := if x.2.1 then r.foldl (fun hr (hand : Combo) =>
          let k := NUM_HANDS * i + getCardIndex hand.c1 hand.c2
          if (hr k).valid then Function.update hr k { hr k with weight := 1 } else hr) x.1
        else x.1
       (hr, x.2.2)) = ((fun k => saveCell i r k (hr k)), saveFlag i r flag) := by
    intro i r hr flag
    simp only [saveInner, Bool.true_and]
    refine Prod.ext ?_ rfl
    funext k
    unfold saveCell
    by_cases ha : allFull r = true
    · simp only [ha, if_true]
      rw [constFold, foldl_update_apply (rowKey i) (constWeight 1), foldl_update_apply (rowKey i) putWeight]
    · simp only [ha, Bool.false_eq_true, if_false]
      rw [foldl_update_apply (rowKey i) putWeight]
  have all : ∀ (l : List (List Combo × Nat)) (hr : Nat → UnitResults) (flag : Nat),
      l.foldl (fun (hr, flag) (range, i) =>
    let flag := flag ||| (1 <<< i)
    let x := range.foldl (fun (hr, check, flag) (hand : Combo) =>
      let k := NUM_HANDS * i + getCardIndex hand.c1 hand.c2
      let u : UnitResults := { hr k with weight := hand.w, valid := true }
      let hr := Function.update hr k u
      if check && u.valid && u.weight != 100 then (hr, false, flag ^^^ (1 <<< i)) else (hr, check, flag))
      (hr, true, flag)
    let hr := if x.2.1 then range.foldl (fun hr (hand : Combo) =>
        let k := NUM_HANDS * i + getCardIndex hand.c1 hand.c2
        if (hr k).valid then Function.update hr k { hr k with weight := 1 } else hr) x.1
      else x.1
    (hr, x.2.2)) (hr, flag) = ((fun k => l.foldl (fun u x => saveCell x.2 x.1 k u) (hr k)), l.foldl (fun f x => saveFlag x.2 x.1 f) flag) := by
    intro l
    induction l with
    | nil => intros; rfl
    | cons x l ih =>
      intro hr flag
      obtain ⟨r, i⟩ := x
      rw [List.foldl_cons]
      have h1 := step i r hr flag
      simp only at h1 ⊢
      rw [h1, ih]
      rfl
  exact all _ hr 0

theorem saveFlag_testBit (p : Nat) (r : List Combo) (flag i : Nat) :
    (saveFlag p r flag).testBit i = if i = p then allFull r else flag.testBit i := by
  have hb : (1 <<< p).testBit i = decide (i = p) := by
    rw [Nat.one_shiftLeft, Nat.testBit_two_pow]
    by_cases h : p = i
    · simp [h]
    · simp [h, Ne.symm h]
  unfold saveFlag
  by_cases ha : allFull r = true
  · simp only [ha, Bool.not_true, Bool.false_eq_true, if_false, Nat.testBit_or, hb]
    by_cases h : i = p <;> simp [h]
  · have ha : allFull r = false := by simpa using ha
    simp only [ha, Bool.not_false, if_true, Nat.testBit_or, Nat.testBit_xor, hb]
    by_cases h : i = p <;> simp [h]

theorem flag_testBit (ranges : List (List Combo)) {p : Nat} (hp : p < ranges.length) :
    (ranges.zipIdx.foldl (fun f x => saveFlag x.2 x.1 f) 0).testBit p = allFull ranges[p] := by
  have e : ∀ (l : List (List Combo × Nat)) (f : Nat), (l.foldl (fun f x => saveFlag x.2 x.1 f) f).testBit p =
      l.foldl (fun u x => if p = x.2 then allFull x.1 else u) (f.testBit p) := by
    intro l
    induction l with
    | nil => intros; rfl
    | cons x l ih =>
      intro f
      rw [List.foldl_cons, List.foldl_cons, ih, saveFlag_testBit]
  rw [e]
  have := zipIdx_foldl_one (fun i r u => if p = i then allFull r else u) ranges 0 p (Nat.testBit 0 p) hp (fun i r u _ hi => by
    rw [if_neg (by omega)])
  simpa using this

/-- The effect of `fix_hand_weights` on one cell. -/
def fixCell (flag p : Nat) (r : List Combo) (k : Nat) (u : UnitResults) : UnitResults :=
  if flag.testBit p then (r.filter (fun c => rowKey p c = k)).foldl (fun u c => constWeight 100 c u) u else u

theorem fixHandWeights_eq (ranges : List (List Combo)) (flag : Nat) (hr : Nat → UnitResults) (k : Nat) :
    fixHandWeights ranges flag hr k = ranges.zipIdx.foldl (fun u x => fixCell flag x.2 x.1 k u) (hr k) := by
  unfold fixHandWeights
  refine zipIdx_foldl_apply (fun i r hr => if flag &&& (1 <<< i) ≠ 0 then r.foldl (fun hr (hand : Combo) =>
        let k := NUM_HANDS * i + getCardIndex hand.c1 hand.c2
        if (hr k).valid then Function.update hr k { hr k with weight := 100 } else hr) hr
    else hr) (fixCell flag) ?_ ranges 0 hr k
  intro i r g k
  unfold fixCell
  have hb : flag &&& (1 <<< i) ≠ 0 ↔ flag.testBit i = true := by
    rw [Nat.one_shiftLeft, Nat.and_two_pow]
    cases flag.testBit i <;> simp
  by_cases h : flag.testBit i = true
  · rw [if_pos (hb.2 h), if_pos h, constFold, foldl_update_apply (rowKey i) (constWeight 100)]
  · rw [if_neg (fun h' => h (hb.1 h')), if_neg h]

end Pokers
