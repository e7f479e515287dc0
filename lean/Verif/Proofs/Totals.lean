import Verif.Proofs.BoardCounts
import Verif.Proofs.Describe
import Verif.Spec.Totals
import Mathlib.Algebra.Order.BigOperators.Group.Finset
import Mathlib.Algebra.Order.BigOperators.Group.List
import Mathlib.Tactic.Linarith
import Mathlib.Tactic.FieldSimp
/-!
# Sums over hands, players and masks
-/
namespace Pokers
open Spec CombinedRange
open Finset (range)

abbrev Shows := List (List WHand × List Nat)

theorem totalWeight_cons (x : List WHand × List Nat) (sd : Shows) : totalWeight (x :: sd) = Spec.dealWeight x.1 + totalWeight sd := by
  unfold totalWeight; rw [List.map_cons, List.sum_cons]

theorem sharesOf_cons (x : List WHand × List Nat) (sd : Shows) (p : Nat) : sharesOf (x :: sd) p =
    (if p ∈ winners x.2 x.1 ∧ winners x.2 x.1 ≠ [p] then (Spec.dealWeight x.1 : ℚ) / ((winners x.2 x.1).length : ℚ) else 0) + sharesOf sd p := by
  unfold sharesOf
  rw [List.filter_cons]
  by_cases h : p ∈ winners x.2 x.1 ∧ winners x.2 x.1 ≠ [p]
  · simp [h]
  · rw [if_neg (by simpa using h), if_neg h, zero_add]

theorem handShares_cons (x : List WHand × List Nat) (sd : Shows) (p a b : Nat) : handShares (x :: sd) p a b =
    (if Holds p a b x.1 ∧ p ∈ winners x.2 x.1 ∧ winners x.2 x.1 ≠ [p] then
      (Spec.dealWeight x.1 : ℚ) / ((winners x.2 x.1).length : ℚ) else 0) + handShares sd p a b := by
  unfold handShares
  rw [List.filter_cons]
  by_cases h : Holds p a b x.1 ∧ p ∈ winners x.2 x.1 ∧ winners x.2 x.1 ≠ [p]
  · simp [h]
  · rw [if_neg (by simpa using h), if_neg h, zero_add]

/-- The place of the cards of player `p`. -/
def handAt (p : Nat) (d : List WHand) : Nat := getCardIndex (d.getD p (0, 0, 0)).1 (d.getD p (0, 0, 0)).2.1

theorem handAt_lt {d : List WHand} (hd : WfDeal d) {p : Nat} (hp : p < d.length) : handAt p d < NUM_HANDS := by
  have hw := hd (d.getD p (0, 0, 0)) (by rw [List.getD_eq_getElem _ _ hp]; exact List.getElem_mem hp)
  exact C10_card_index_bijective.2.1 _ hw.1 _ hw.2.1 hw.2.2

theorem holds_iff {d : List WHand} (hd : WfDeal d) {p a b : Nat} (hp : p < d.length) (ha : a < 52) (hb : b < 52) (hab : a ≠ b) :
    Holds p a b d ↔ handAt p d = getCardIndex a b := by
  have hw := hd (d.getD p (0, 0, 0)) (by rw [List.getD_eq_getElem _ _ hp]; exact List.getElem_mem hp)
  unfold Holds handAt
  constructor
  · rintro ⟨_, ⟨h1, h2⟩ | ⟨h1, h2⟩⟩
    · rw [h1, h2]
    · rw [h1, h2, C10_card_index_bijective.1]
  · intro h
    exact ⟨hp, C10_card_index_bijective.2.2.1 _ hw.1 _ hw.2.1 _ ha _ hb hw.2.2 hab h⟩

/-- The cell of the `k`-th hand. -/
theorem CountsOf.cell {n : Nat} {r : Results} {sd : Shows} (h : CountsOf n r sd) (hwf : ∀ x ∈ sd, WfDeal x.1)
    (hl : ∀ x ∈ sd, x.1.length = n) {p k : Nat} (hp : p < n) (hk : k < NUM_HANDS) :
    let u := r.handResults (NUM_HANDS * p + k)
    u.total = weightOf sd (fun x => handAt p x.1 = k) ∧
    u.wins = weightOf sd (fun x => handAt p x.1 = k ∧ winners x.2 x.1 = [p]) ∧
    u.ties = weightOf sd (fun x => handAt p x.1 = k ∧ p ∈ winners x.2 x.1 ∧ winners x.2 x.1 ≠ [p]) ∧
    u.correctedTies = ((sd.filter fun x => handAt p x.1 = k ∧ p ∈ winners x.2 x.1 ∧ winners x.2 x.1 ≠ [p]).map
      fun x => (Spec.dealWeight x.1 : ℚ) / ((winners x.2 x.1).length : ℚ)).sum := by
  obtain ⟨a, ha, b, hb, hab, rfl⟩ := C10_card_index_bijective.2.2.2 k hk
  have hc := h.hand p hp a ha b hb hab
  have hH : ∀ x ∈ sd, (Holds p a b x.1 ↔ handAt p x.1 = getCardIndex a b) := fun x hx =>
    holds_iff (hwf x hx) (by rw [hl x hx]; exact hp) ha hb hab
  refine ⟨(congrArg (fun c : Cell => c.2.2.1) hc).trans (weightOf_congr hH),
    (congrArg (fun c : Cell => c.1) hc).trans (weightOf_congr fun x hx => by rw [hH x hx]),
    (congrArg (fun c : Cell => c.2.1) hc).trans (weightOf_congr fun x hx => by rw [hH x hx]),
    (congrArg (fun c : Cell => c.2.2.2) hc).trans ?_⟩
  show handShares sd p a b = _
  unfold handShares
  refine congrArg (fun l => (List.map _ l).sum) (List.filter_congr fun x hx => ?_)
  simp only [hH x hx]

/-- Splitting a weight by a value. -/
theorem sum_weightOf {sd : Shows} (f : List WHand × List Nat → Nat) (N : Nat) (hf : ∀ x ∈ sd, f x < N)
    (P : List WHand × List Nat → Prop) [DecidablePred P] :
    ∑ k ∈ range N, weightOf sd (fun x => f x = k ∧ P x) = weightOf sd P := by
  induction sd with
  | nil => simp [weightOf]
  | cons x sd ih =>
    simp only [weightOf_cons]
    rw [Finset.sum_add_distrib, ih (fun y hy => hf y (by simp [hy]))]
    congr 1
    rw [Finset.sum_eq_single (f x)]
    · by_cases hP : P x <;> simp [hP]
    · intro k _ hk; rw [if_neg]; rintro ⟨h, _⟩; exact hk h.symm
    · intro h; exact absurd (Finset.mem_range.2 (hf x (by simp))) h

theorem sum_ratOf {sd : Shows} (f : List WHand × List Nat → Nat) (N : Nat) (hf : ∀ x ∈ sd, f x < N)
    (P : List WHand × List Nat → Prop) [DecidablePred P] (g : List WHand × List Nat → ℚ) :
    ∑ k ∈ range N, ((sd.filter fun x => f x = k ∧ P x).map g).sum = ((sd.filter fun x => P x).map g).sum := by
  induction sd with
  | nil => simp
  | cons x sd ih =>
    have hc : ∀ (Q : List WHand × List Nat → Prop) [DecidablePred Q], (((x :: sd).filter fun x => Q x).map g).sum =
        (if Q x then g x else 0) + ((sd.filter fun x => Q x).map g).sum := by
      intro Q _
      rw [List.filter_cons]
      by_cases h : Q x
      · simp [h]
      · rw [if_neg (by simpa using h), if_neg h, zero_add]
    rw [hc P, ← ih (fun y hy => hf y (by simp [hy])),
      Finset.sum_congr rfl (fun k _ => hc (fun x => f x = k ∧ P x)), Finset.sum_add_distrib]
    congr 1
    rw [Finset.sum_eq_single (f x)]
    · by_cases hP : P x <;> simp [hP]
    · intro k _ hk; rw [if_neg]; rintro ⟨h, _⟩; exact hk h.symm
    · intro h; exact absurd (Finset.mem_range.2 (hf x (by simp))) h

theorem weightOf_true (sd : Shows) : weightOf sd (fun _ => True) = totalWeight sd := by
  unfold weightOf totalWeight; simp

/-- The sums over the hands of a player. -/
theorem CountsOf.hands {n : Nat} {r : Results} {sd : Shows} (h : CountsOf n r sd) (hwf : ∀ x ∈ sd, WfDeal x.1)
    (hl : ∀ x ∈ sd, x.1.length = n) {p : Nat} (hp : p < n) :
    ∑ k ∈ range NUM_HANDS, (r.handResults (NUM_HANDS * p + k)).total = totalWeight sd ∧
    ∑ k ∈ range NUM_HANDS, (r.handResults (NUM_HANDS * p + k)).wins = winsOf sd [p] ∧
    ∑ k ∈ range NUM_HANDS, (r.handResults (NUM_HANDS * p + k)).ties = tiesOf sd p ∧
    ∑ k ∈ range NUM_HANDS, (r.handResults (NUM_HANDS * p + k)).correctedTies = sharesOf sd p := by
  have hf : ∀ x ∈ sd, handAt p x.1 < NUM_HANDS := fun x hx => handAt_lt (hwf x hx) (by rw [hl x hx]; exact hp)
  refine ⟨?_, ?_, ?_, ?_⟩
  · rw [Finset.sum_congr rfl fun k hk => (h.cell hwf hl hp (Finset.mem_range.1 hk)).1, ← weightOf_true,
      ← sum_weightOf (fun x => handAt p x.1) NUM_HANDS hf (fun _ => True)]
    refine Finset.sum_congr rfl fun k _ => weightOf_congr fun x _ => by simp
  · rw [Finset.sum_congr rfl fun k hk => (h.cell hwf hl hp (Finset.mem_range.1 hk)).2.1]
    exact sum_weightOf (fun x => handAt p x.1) NUM_HANDS hf _
  · rw [Finset.sum_congr rfl fun k hk => (h.cell hwf hl hp (Finset.mem_range.1 hk)).2.2.1]
    exact sum_weightOf (fun x => handAt p x.1) NUM_HANDS hf _
  · rw [Finset.sum_congr rfl fun k hk => (h.cell hwf hl hp (Finset.mem_range.1 hk)).2.2.2]
    exact sum_ratOf (fun x => handAt p x.1) NUM_HANDS hf _ _

/-- The masks of showdowns are below `2^n`. -/
theorem winMask_lt {B : List Nat} {d : List WHand} (h9 : d.length ≤ 9) : u8Mask (winners B d) < 2 ^ d.length := by
  by_cases h : d.length = 9
  · rw [h]; exact lt_of_lt_of_le (u8Mask_nine B h).2.1 (by decide)
  · rw [winners_filter]; exact (u8Mask_filter _ d.length (by omega)).1

theorem CountsOf.maskSum {n : Nat} {r : Results} {sd : Shows} (h : CountsOf n r sd) (hl : ∀ x ∈ sd, x.1.length = n) (h9 : n ≤ 9) :
    ∑ i ∈ range (2 ^ n), r.winsByMask i = totalWeight sd := by
  rw [Finset.sum_congr rfl fun i hi => h.mask i (Finset.mem_range.1 hi), ← weightOf_true,
    ← sum_weightOf (fun x => u8Mask (winners x.2 x.1)) (2 ^ n) (fun x hx => by
      have := winMask_lt (B := x.2) (d := x.1) (by rw [hl x hx]; exact h9)
      rwa [hl x hx] at this) (fun _ => True)]
  refine Finset.sum_congr rfl fun k _ => weightOf_congr fun x _ => by simp

/-- Every showdown is divided completely among the players. -/
theorem shares_sum {sd : Shows} {n : Nat} (hl : ∀ x ∈ sd, x.1.length = n) (hn : 0 < n) :
    ∑ p ∈ range n, ((winsOf sd [p] : ℚ) + sharesOf sd p) = (totalWeight sd : ℚ) := by
  induction sd with
  | nil => simp [winsOf, weightOf, sharesOf, totalWeight]
  | cons x sd ih =>
    have ih := ih (fun y hy => hl y (by simp [hy]))
    have hx := hl x (by simp)
    unfold winsOf at ih ⊢
    simp only [weightOf_cons, sharesOf_cons, totalWeight_cons]
    push_cast
    rw [← ih, ← sub_eq_iff_eq_add, ← Finset.sum_sub_distrib]
    have hne : winners x.2 x.1 ≠ [] := winners_ne_nil (by omega)
    have hnd := winners_nodup x.2 x.1
    have hlt : ∀ i ∈ winners x.2 x.1, i < n := fun i hi => hx ▸ winners_lt hi
    generalize winners x.2 x.1 = W at *
    have hpos : (W.length : ℚ) ≠ 0 := by
      simp [hne]
    have hterm : ∀ p ∈ range n, ((if W = [p] then (Spec.dealWeight x.1 : ℚ) else 0) + (weightOf sd fun x => winners x.2 x.1 = [p] : ℚ) +
        ((if p ∈ W ∧ W ≠ [p] then (Spec.dealWeight x.1 : ℚ) / (W.length : ℚ) else 0) + sharesOf sd p) -
        ((weightOf sd fun x => winners x.2 x.1 = [p] : ℚ) + sharesOf sd p)) =
        if p ∈ W then (Spec.dealWeight x.1 : ℚ) / (W.length : ℚ) else 0 := by
      intro p _
      by_cases h1 : W = [p]
      · simp [h1]
      · by_cases h2 : p ∈ W
        · simp [h1, h2]
        · simp [h1, h2]
    rw [Finset.sum_congr rfl hterm, ← Finset.sum_filter, Finset.sum_const, nsmul_eq_mul]
    have hcard : ((range n).filter fun p => p ∈ W).card = W.length := by
      rw [← List.toFinset_card_of_nodup hnd]
      congr 1
      ext p
      simp only [Finset.mem_filter, Finset.mem_range, List.mem_toFinset]
      exact ⟨fun h => h.2, fun h => ⟨hlt p h, h⟩⟩
    rw [hcard]
    field_simp

/-! ## Tie shares -/

theorem maskPlayers_length {n i : Nat} (hi : i < 2 ^ n) (hn : n ≤ 64) : (maskPlayers n i).length = countOnes i := by
  unfold maskPlayers countOnes
  have : ∀ m, n + m ≤ 64 → ((List.range (n + m)).filter fun k => i.testBit k).length = ((List.range n).filter fun k => i.testBit k).length := by
    intro m
    induction m with
    | zero => intro _; rfl
    | succ m ih =>
      intro hm
      rw [← Nat.add_assoc, List.range_succ, List.filter_append, List.length_append, ih (by omega)]
      have : i.testBit (n + m) = false :=
        Nat.testBit_lt_two_pow (lt_of_lt_of_le hi (Nat.pow_le_pow_right (by omega) (by omega)))
      simp [this]
  have h64 := this (64 - n) (by omega)
  rw [show n + (64 - n) = 64 by omega] at h64
  simpa using h64.symm

/-- The exact share of player `p` in the ties. -/
def exactShare (n : Nat) (r : Results) (p : Nat) : ℚ :=
  ∑ i ∈ range (2 ^ n), if i.testBit p = true ∧ countOnes i ≠ 1 then (r.winsByMask i : ℚ) / (countOnes i : ℚ) else 0

theorem CountsOf.share {n : Nat} {r : Results} {sd : Shows} (h : CountsOf n r sd) (hl : ∀ x ∈ sd, x.1.length = n) (h8 : n ≤ 8)
    {p : Nat} (hp : p < n) : exactShare n r p = sharesOf sd p := by
  have hms : ∀ i ∈ range (2 ^ n), r.winsByMask i = weightOf sd fun x => u8Mask (winners x.2 x.1) = i := fun i hi =>
    h.mask i (Finset.mem_range.1 hi)
  unfold exactShare
  rw [Finset.sum_congr rfl fun i hi => by rw [hms i hi]]
  clear hms h
  induction sd with
  | nil => simp [weightOf, sharesOf]
  | cons x sd ih =>
    have ih := ih (fun y hy => hl y (by simp [hy]))
    have hx := hl x (by simp)
    rw [sharesOf_cons, ← ih]
    simp only [weightOf_cons]
    rw [← sub_eq_iff_eq_add, ← Finset.sum_sub_distrib]
    have hlt := winMask_lt (B := x.2) (d := x.1) (by omega)
    have hW := (u8Mask_eq_iff (B := x.2) (d := x.1) (by omega) hlt).1 rfl
    rw [hx] at hlt hW
    have hlen := maskPlayers_length hlt (by omega)
    rw [← hW] at hlen
    have hmem : (u8Mask (winners x.2 x.1)).testBit p = true ↔ p ∈ winners x.2 x.1 := by
      conv_rhs => rw [hW]
      unfold maskPlayers
      simp [hp]
    generalize u8Mask (winners x.2 x.1) = m at *
    rw [Finset.sum_eq_single m]
    · by_cases hb : m.testBit p = true
      · by_cases hc : countOnes m = 1
        · have h1 : winners x.2 x.1 = [p] := by
            rw [hc] at hlen
            obtain ⟨a, ha⟩ := List.length_eq_one_iff.1 hlen
            have := hmem.1 hb
            rw [ha, List.mem_singleton] at this
            rw [ha, this]
          simp [hc, h1]
        · have h1 : winners x.2 x.1 ≠ [p] := by
            intro h1
            rw [h1] at hlen
            exact hc hlen.symm
          have h2 : m.testBit p = true ∧ countOnes m ≠ 1 := ⟨hb, hc⟩
          have h3 : p ∈ winners x.2 x.1 ∧ winners x.2 x.1 ≠ [p] := ⟨hmem.1 hb, h1⟩
          simp only [h2, h3, if_true, not_false_eq_true, and_self, ne_eq, hlen]
          push_cast
          ring
      · have hb' : ¬ p ∈ winners x.2 x.1 := fun h => hb (hmem.2 h)
        simp [hb, hb']
    · intro i _ hne
      have hne' : ¬ m = i := fun h => hne h.symm
      simp only [hne', if_false, zero_add, sub_self]
    · intro hn
      exact absurd (Finset.mem_range.2 hlt) hn

theorem applyFlushes_ties {sqrt : ℚ → ℚ} {n : Nat} {ex : Bool} {hist : List (Batch × HandStats)} {r : Results}
    (hids : ∀ x ∈ hist, IdPlayers n x.1) : ∀ p < n, (applyFlushes sqrt n ex hist r).ties p =
      r.ties p + (hist.map fun x => ∑ i ∈ range (2 ^ n), maskTies x.1 p i).sum := by
  intro p hp
  induction hist generalizing r with
  | nil => simp [applyFlushes]
  | cons x xs ih =>
    show (applyFlushes sqrt n ex xs (updateResults sqrt n ex x.1 x.2 r)).ties p = _
    rw [ih (fun y hy => hids y (by simp [hy])), (updateResults_merged sqrt n ex x.1 x.2 r (hids x (by simp))).ties p hp,
      List.map_cons, List.sum_cons, add_assoc]

theorem applyFlushes_masks {sqrt : ℚ → ℚ} {n : Nat} {ex : Bool} {hist : List (Batch × HandStats)} {r : Results}
    (hids : ∀ x ∈ hist, IdPlayers n x.1) : ∀ i < 2 ^ n, (applyFlushes sqrt n ex hist r).winsByMask i =
      r.winsByMask i + (hist.map fun x => x.1.winsByMask i).sum := by
  intro i hi
  induction hist generalizing r with
  | nil => simp [applyFlushes]
  | cons x xs ih =>
    show (applyFlushes sqrt n ex xs (updateResults sqrt n ex x.1 x.2 r)).winsByMask i = _
    rw [ih (fun y hy => hids y (by simp [hy])), (updateResults_merged sqrt n ex x.1 x.2 r (hids x (by simp))).masks i hi,
      List.map_cons, List.sum_cons, add_assoc]

section
variable {sqrt : ℚ → ℚ} {ex : Bool} {ranges : List (List Combo)} {b d : Nat} {r : Results} {s : Sim} {flag : Nat} {r0 : Results}
    {hist : List (Batch × HandStats)} {sd : Shows}

theorem Calc.ties (h : Calc sqrt ex ranges b d r s flag r0 hist sd) {p : Nat} (hp : p < s.nPlayers) :
    r.ties p = (hist.map fun x => ∑ i ∈ range (2 ^ s.nPlayers), maskTies x.1 p i).sum := by
  rw [h.final, (finishResults_counts _ _ _).2.1, applyFlushes_ties h.ids p hp, (startResults_counts h.start).2.1, zero_add]

theorem Calc.masks (h : Calc sqrt ex ranges b d r s flag r0 hist sd) {i : Nat} (hi : i < 2 ^ s.nPlayers) :
    r.winsByMask i = (hist.map fun x => x.1.winsByMask i).sum := by
  rw [h.final, (finishResults_counts _ _ _).2.2.1, applyFlushes_masks h.ids i hi]
  have := congrFun (congrArg (fun x : FT => x.1.1) (startResults_counts h.start).2.2.1) i
  have h0 : r0.winsByMask i = 0 := this
  rw [h0, zero_add]

theorem Calc.equities (h : Calc sqrt ex ranges b d r s flag r0 hist sd) :
    r.equities = (getEquity s.nPlayers r).equities := by
  have h1 := (finishResults_rest s flag (applyFlushes sqrt s.nPlayers ex hist r0)).1
  have h2 := finishResults_counts s flag (applyFlushes sqrt s.nPlayers ex hist r0)
  rw [← h.final] at h1 h2
  rw [h1]
  unfold getEquity
  rw [h2.1, h2.2.1]

theorem maskTies_nonneg (x : Batch) (p i : Nat) : 0 ≤ maskTies x p i := by
  unfold maskTies tieShare
  split
  · exact Nat.cast_nonneg _
  · exact le_rfl

theorem Calc.ties_nonneg (h : Calc sqrt ex ranges b d r s flag r0 hist sd) {p : Nat} (hp : p < s.nPlayers) :
    0 ≤ r.ties p := by
  rw [h.ties hp]
  apply List.sum_nonneg
  intro x hx
  obtain ⟨y, _, rfl⟩ := List.mem_map.1 hx
  exact Finset.sum_nonneg fun i _ => maskTies_nonneg _ _ _

/-- A shared mask of player `p`. -/
def TieMask (n p i : Nat) : Prop := i < 2 ^ n ∧ i.testBit p = true ∧ countOnes i ≠ 1

theorem countOnes_pos {i p : Nat} (hp : p < 64) (h : i.testBit p = true) : 0 < countOnes i := by
  unfold countOnes
  refine List.length_pos_of_mem (a := p) (List.mem_filter.2 ⟨List.mem_range.2 hp, h⟩)

/-- The integer shares are at most the exact ones and lose less than one unit per flush and mask. -/
theorem share_bounds (L : List (Batch × HandStats)) (n : Nat) {p : Nat} (hp : p < 64) (f : Nat → Nat)
    (hf : ∀ i < 2 ^ n, f i = (L.map fun x => x.1.winsByMask i).sum) :
    let ties := (L.map fun x => ∑ i ∈ range (2 ^ n), maskTies x.1 p i).sum
    let share := ∑ i ∈ range (2 ^ n), if i.testBit p = true ∧ countOnes i ≠ 1 then (f i : ℚ) / (countOnes i : ℚ) else 0
    ties ≤ share ∧ share - ties ≤
      (L.length : ℚ) * ∑ i ∈ range (2 ^ n), if i.testBit p = true ∧ countOnes i ≠ 1 then 1 - 1 / (countOnes i : ℚ) else 0 := by
  intro ties share
  have hshare : share = (L.map fun x => ∑ i ∈ range (2 ^ n),
      if i.testBit p = true ∧ countOnes i ≠ 1 then (x.1.winsByMask i : ℚ) / (countOnes i : ℚ) else 0).sum := by
    have : share = ∑ i ∈ range (2 ^ n), if i.testBit p = true ∧ countOnes i ≠ 1 then
        (((L.map fun x => x.1.winsByMask i).sum : Nat) : ℚ) / (countOnes i : ℚ) else 0 :=
      Finset.sum_congr rfl fun i hi => by rw [hf i (Finset.mem_range.1 hi)]
    rw [this]
    clear this hf ties share
    induction L with
    | nil => simp
    | cons x L ih =>
      rw [List.map_cons, List.sum_cons, ← ih, ← Finset.sum_add_distrib]
      refine Finset.sum_congr rfl fun i _ => ?_
      split
      · rw [List.map_cons, List.sum_cons]; push_cast; ring
      · simp
  have hterm : ∀ x : Batch × HandStats, ∀ i,
      maskTies x.1 p i ≤ (if i.testBit p = true ∧ countOnes i ≠ 1 then (x.1.winsByMask i : ℚ) / (countOnes i : ℚ) else 0) ∧
      (if i.testBit p = true ∧ countOnes i ≠ 1 then (x.1.winsByMask i : ℚ) / (countOnes i : ℚ) else 0) - maskTies x.1 p i ≤
        if i.testBit p = true ∧ countOnes i ≠ 1 then 1 - 1 / (countOnes i : ℚ) else 0 := by
    intro x i
    unfold maskTies
    by_cases hc : i.testBit p = true ∧ countOnes i ≠ 1
    · rw [if_pos hc, if_pos hc, if_pos hc]
      unfold tieShare
      have hpos := countOnes_pos hp hc.1
      generalize countOnes i = c at hpos ⊢
      generalize x.1.winsByMask i = w
      have hq : (0 : ℚ) < (c : ℚ) := by exact_mod_cast hpos
      have hdm := Nat.div_add_mod w c
      have hmod := Nat.mod_lt w hpos
      have e : (w : ℚ) = (c : ℚ) * ((w / c : Nat) : ℚ) + ((w % c : Nat) : ℚ) := by exact_mod_cast hdm.symm
      have hm1 : ((w % c : Nat) : ℚ) ≤ (c : ℚ) - 1 := by
        have : w % c + 1 ≤ c := hmod
        have : ((w % c + 1 : Nat) : ℚ) ≤ (c : ℚ) := by exact_mod_cast this
        push_cast at this
        linarith
      constructor
      · rw [le_div_iff₀ hq]
        have : (0 : ℚ) ≤ ((w % c : Nat) : ℚ) := Nat.cast_nonneg _
        rw [e]; nlinarith
      · have e2 : (w : ℚ) / (c : ℚ) - ((w / c : Nat) : ℚ) = ((w % c : Nat) : ℚ) / (c : ℚ) := by
          rw [e]; field_simp; ring
        rw [e2]
        have e3 : (1 : ℚ) - 1 / (c : ℚ) = ((c : ℚ) - 1) / (c : ℚ) := by field_simp
        rw [e3]
        exact div_le_div_of_nonneg_right hm1 hq.le
    · rw [if_neg hc, if_neg hc, if_neg hc]
      simp
  rw [hshare]
  clear hshare hf
  show (L.map fun x => ∑ i ∈ range (2 ^ n), maskTies x.1 p i).sum ≤ _ ∧ _ - (L.map fun x => ∑ i ∈ range (2 ^ n), maskTies x.1 p i).sum ≤ _
  clear ties share
  induction L with
  | nil => simp
  | cons x L ih =>
    simp only [List.map_cons, List.sum_cons, List.length_cons]
    have h1 : ∑ i ∈ range (2 ^ n), maskTies x.1 p i ≤ ∑ i ∈ range (2 ^ n),
        if i.testBit p = true ∧ countOnes i ≠ 1 then (x.1.winsByMask i : ℚ) / (countOnes i : ℚ) else 0 :=
      Finset.sum_le_sum fun i _ => (hterm x i).1
    have h2 : (∑ i ∈ range (2 ^ n), if i.testBit p = true ∧ countOnes i ≠ 1 then (x.1.winsByMask i : ℚ) / (countOnes i : ℚ) else 0) -
        ∑ i ∈ range (2 ^ n), maskTies x.1 p i ≤
        ∑ i ∈ range (2 ^ n), if i.testBit p = true ∧ countOnes i ≠ 1 then 1 - 1 / (countOnes i : ℚ) else 0 := by
      rw [← Finset.sum_sub_distrib]
      exact Finset.sum_le_sum fun i _ => (hterm x i).2
    obtain ⟨i1, i2⟩ := ih
    push_cast
    constructor
    · linarith
    · linarith

end

end Pokers
