import Verif.Props.Evaluator
import Mathlib.Data.Nat.ModEq
import Mathlib.Data.Int.GCD
/-!
# Equality of hands and the role of the default hand (C55, C56)
-/
namespace Pokers
open Spec (IsCards)

/-- `==` of hands is equality of both fields. -/
theorem C55_eq (a b : Hand) : a.beq b = true ↔ a = b := by
  obtain ⟨k, m⟩ := a
  obtain ⟨k', m'⟩ := b
  simp only [Hand.beq, Bool.and_eq_true, beq_iff_eq, Hand.mk.injEq]
  exact And.comm

theorem build_mask_mem {t : Build} (h : ∀ c ∈ t.cards, c < 52) {c : Nat} (hc : c < 52) :
    t.hand.mask.testBit (16 * (3 - c % 4) + c / 4) = decide (c ∈ t.cards) := by
  rw [build_mask, Bool.eq_iff_iff, List.any_eq_true, decide_eq_true_eq]
  constructor
  · rintro ⟨d, hd, hb⟩
    have h52 := h d hd
    rw [CARDS_mask h52, Nat.testBit_two_pow, decide_eq_true_eq] at hb
    rwa [show c = d by omega]
  · intro hm
    exact ⟨c, hm, by rw [CARDS_mask hc, Nat.testBit_two_pow, decide_eq_true_eq]⟩

/-- C55: two hands, put together in whatever way from different cards, are equal exactly if they have the same cards and the same number
of default hands. -/
theorem C55_same_cards {s t : Build} (hs : IsCards s.cards) (ht : IsCards t.cards) (bs : s.bases < 65536) (bt : t.bases < 65536) :
    s.hand.beq t.hand = true ↔ s.cards.Perm t.cards ∧ s.bases = t.bases := by
  rw [C55_eq]
  constructor
  · intro h
    have hm : ∀ c, c ∈ s.cards ↔ c ∈ t.cards := by
      intro c
      by_cases hc : c < 52
      · have h1 := build_mask_mem hs.2 hc
        rw [h, build_mask_mem ht.2 hc] at h1
        simpa using h1.symm
      · exact ⟨fun h => absurd (hs.2 c h) hc, fun h => absurd (ht.2 c h) hc⟩
    have hp := (List.perm_ext_iff_of_nodup hs.1 ht.1).2 hm
    refine ⟨hp, ?_⟩
    have h1 := build_key s
    have h2 := build_key t
    rw [h, h2, (hp.map _).sum_eq] at h1
    have h3 : Nat.ModEq (2 ^ 64) (t.bases * Hand.default.key) (s.bases * Hand.default.key) := Nat.ModEq.add_right_cancel' _ h1
    rw [show Hand.default.key = 13107 * 2 ^ 48 by decide, ← Nat.mul_assoc, ← Nat.mul_assoc,
      show (2 : Nat) ^ 64 = 2 ^ 16 * 2 ^ 48 by norm_num] at h3
    have h4 := Nat.ModEq.mul_right_cancel' (by norm_num) h3
    have h5 := Nat.ModEq.cancel_right_of_coprime (by decide) h4
    exact (Nat.ModEq.eq_of_lt_of_lt h5 bt bs).symm
  · rintro ⟨hp, hb⟩
    exact C03_order_and_grouping hs.2 hb hp

/-- C55: hands of different cards on top of the default hand are equal exactly if they have the same cards. -/
theorem C55_ofCards {xs ys : List Nat} (hx : IsCards xs) (hy : IsCards ys) :
    (ofCards xs).beq (ofCards ys) = true ↔ ∀ c, c ∈ xs ↔ c ∈ ys := by
  rw [C55_eq]
  constructor
  · intro h c
    by_cases hc : c < 52
    · have h1 := mask_testBit hx.2 (s := c % 4) (r := c / 4) (by omega) (by omega)
      have h2 := mask_testBit hy.2 (s := c % 4) (r := c / 4) (by omega) (by omega)
      rw [h, h2, show 4 * (c / 4) + c % 4 = c by omega] at h1
      simpa using h1.symm
    · exact ⟨fun h => absurd (hx.2 c h) hc, fun h => absurd (hy.2 c h) hc⟩
  · intro h
    exact C03_perm ((List.perm_ext_iff_of_nodup hx.1 hy.1).2 h)

/-- Two hands with the same counters and ranks, but other cards. -/
example : (ofCards [0, 5]).beq (ofCards [1, 4]) = false ∧ (ofCards [0, 5]).key = (ofCards [1, 4]).key := by decide +kernel
example : (Build.sum .base (.sum (.card 3) (.card 9))).hand.beq (Build.sum (.sum (.card 9) .base) (.card 3)).hand = true := by
  decide +kernel

/-! ## C56: how often the default hand is added -/

theorem build_testBit {t : Build} (h : ∀ c ∈ t.cards, c < 52) (hs : ∀ s < 4, 3 * t.bases + suitCnt t.cards s ≤ 15) {s : Nat}
    (s4 : s < 4) : t.hand.key.testBit (51 + 4 * s) = decide (8 ≤ 3 * t.bases + suitCnt t.cards s) := by
  have h0 := hs 0 (by omega); have h1 := hs 1 (by omega); have h2 := hs 2 (by omega); have h3 := hs 3 (by omega)
  have hl := length_eq_suits t.cards
  have hr := rankSum_le t.cards
  have hk := build_key t
  rw [Nat.mod_eq_of_lt (build_key_lt t h), keySum_eq t.cards h, default_key] at hk
  generalize ea : 3 * t.bases + suitCnt t.cards 0 = a0 at *
  generalize eb : 3 * t.bases + suitCnt t.cards 1 = a1 at *
  generalize ec : 3 * t.bases + suitCnt t.cards 2 = a2 at *
  generalize ed : 3 * t.bases + suitCnt t.cards 3 = a3 at *
  obtain ⟨low, hlow, hkey⟩ : ∃ low < 2 ^ 48, t.hand.key = 2 ^ 48 * (a0 + 16 * a1 + 256 * a2 + 4096 * a3) + low := by
    refine ⟨2 ^ 32 * t.cards.length + rankSum t.cards, by omega, ?_⟩
    rw [hk, Nat.mod_eq_of_lt]
    · omega
    · omega
  rw [Nat.testBit_eq_decide_div_mod_eq, hkey]
  clear hk hkey hr hl
  congr 1
  rcases (show s = 0 ∨ s = 1 ∨ s = 2 ∨ s = 3 by omega) with rfl | rfl | rfl | rfl <;> norm_num <;> omega

/-- C56: a hand is taken for a flush exactly if it has `8 - 3 k` cards of one suit, where `k` is the number of default hands in it. -/
theorem C56_hasFlush {t : Build} (h : ∀ c ∈ t.cards, c < 52) (hs : ∀ s < 4, 3 * t.bases + t.cards.countP (fun c => Spec.suit c = s) ≤ 15) :
    t.hand.hasFlush = true ↔ ∃ s < 4, 8 ≤ 3 * t.bases + t.cards.countP (fun c => Spec.suit c = s) := by
  have e : ∀ s, t.cards.countP (fun c => decide (Spec.suit c = s)) = suitCnt t.cards s := by
    intro s
    unfold suitCnt
    apply List.countP_congr
    intro c _
    simp
  simp only [e] at hs ⊢
  unfold Hand.hasFlush
  rw [show FLUSH_CHECK_MASK64 = 2 ^ (51 + 4 * 0) ||| 2 ^ (51 + 4 * 1) ||| 2 ^ (51 + 4 * 2) ||| 2 ^ (51 + 4 * 3) by decide,
    and_mask4, build_testBit h hs (by omega), build_testBit h hs (by omega), build_testBit h hs (by omega),
    build_testBit h hs (by omega)]
  have : (∃ s < 4, 8 ≤ 3 * t.bases + suitCnt t.cards s) ↔ (8 ≤ 3 * t.bases + suitCnt t.cards 0 ∨ 8 ≤ 3 * t.bases + suitCnt t.cards 1 ∨
      8 ≤ 3 * t.bases + suitCnt t.cards 2 ∨ 8 ≤ 3 * t.bases + suitCnt t.cards 3) := by
    constructor
    · rintro ⟨s, hs, h⟩
      rcases (show s = 0 ∨ s = 1 ∨ s = 2 ∨ s = 3 by omega) with rfl | rfl | rfl | rfl <;> omega
    · rintro (h | h | h | h)
      exacts [⟨0, by omega, h⟩, ⟨1, by omega, h⟩, ⟨2, by omega, h⟩, ⟨3, by omega, h⟩]
  rw [this]
  by_cases a : 8 ≤ 3 * t.bases + suitCnt t.cards 0 <;> by_cases b : 8 ≤ 3 * t.bases + suitCnt t.cards 1 <;>
    by_cases c : 8 ≤ 3 * t.bases + suitCnt t.cards 2 <;> by_cases d : 8 ≤ 3 * t.bases + suitCnt t.cards 3 <;> simp [a, b, c, d]

/-- C56: without the default hand no flush is recognised, whatever the (up to seven) cards are. -/
theorem C56_no_default {t : Build} (h : ∀ c ∈ t.cards, c < 52) (h7 : t.cards.length ≤ 7) (hb : t.bases = 0) : t.hand.hasFlush = false := by
  rw [← Bool.not_eq_true, C56_hasFlush h]
  · rintro ⟨s, _, hs⟩
    have := List.countP_le_length (p := fun c => decide (Spec.suit c = s)) (l := t.cards)
    omega
  · intro s _
    have := List.countP_le_length (p := fun c => decide (Spec.suit c = s)) (l := t.cards)
    omega

/-- C56: with exactly one default hand a flush is five cards of one suit. -/
theorem C56_one_default {t : Build} (h : ∀ c ∈ t.cards, c < 52) (h12 : ∀ s < 4, t.cards.countP (fun c => Spec.suit c = s) ≤ 12)
    (hb : t.bases = 1) : t.hand.hasFlush = true ↔ ∃ s < 4, 5 ≤ t.cards.countP (fun c => Spec.suit c = s) := by
  rw [C56_hasFlush h (by intro s hs; have := h12 s hs; omega), hb]
  simp only [show ∀ n, 8 ≤ 3 * 1 + n ↔ 5 ≤ n from fun n => by omega]

/-- C56: finding: two hands made by `from_bit_mask` (or `default`) cannot be added: the sum takes two cards of one suit for a flush. -/
theorem C56_two_defaults {t : Build} (h : ∀ c ∈ t.cards, c < 52) (h9 : ∀ s < 4, t.cards.countP (fun c => Spec.suit c = s) ≤ 9)
    (hb : t.bases = 2) : t.hand.hasFlush = true ↔ ∃ s < 4, 2 ≤ t.cards.countP (fun c => Spec.suit c = s) := by
  rw [C56_hasFlush h (by intro s hs; have := h9 s hs; omega), hb]
  simp only [show ∀ n, 8 ≤ 3 * 2 + n ↔ 2 ≤ n from fun n => by omega]

/-- Finding: `Hand::from_bit_mask(2s) + Hand::from_bit_mask(4s)` scores differently from `Hand::from_bit_mask(2s4s)`. -/
theorem C56_sum_of_masks : Hand.fromBitMask 1 + Hand.fromBitMask 256 ≠ Hand.fromBitMask 257 ∧
    (Hand.fromBitMask 1 + Hand.fromBitMask 256).evaluate ≠ (Hand.fromBitMask 257).evaluate ∧
    (Hand.fromBitMask 1 + Hand.fromBitMask 256).hasFlush = true := by decide +kernel

/-- Finding: a flush put together from `from_hole_cards` and `CARDS` alone is not recognised. -/
example : (Hand.fromHoleCards 0 4 + CARDS 8 + CARDS 12 + CARDS 20).hasFlush = false ∧
    (Hand.default + Hand.fromHoleCards 0 4 + CARDS 8 + CARDS 12 + CARDS 20).hasFlush = true := by decide +kernel

end Pokers
