import Verif.Proofs.Unchecked
import Verif.Proofs.Prepare
import Verif.Props.Draws
/-!
# The public functions of the hand module on arbitrary arguments (C86)
-/
namespace Pokers
open Spec

/-! ## The primitive operations -/

/-- `leading_zeros` and `trailing_zeros` of a nonzero `u64` give its highest and its lowest bit; of zero both give 64. -/
theorem C86_bits :
    (leadingZeros 64 0 = 64 ∧ trailingZeros 0 = 64) ∧
    ∀ x < 2 ^ 64, x ≠ 0 →
      (leadingZeros 64 x ≤ 63 ∧ x.testBit (63 - leadingZeros 64 x) = true ∧ ∀ i, 63 - leadingZeros 64 x < i → x.testBit i = false) ∧
      (trailingZeros x ≤ 63 ∧ x.testBit (trailingZeros x) = true ∧ ∀ i < trailingZeros x, x.testBit i = false) := by
  refine ⟨by decide, fun x hx h => ⟨highBit_spec h hx, ?_⟩⟩
  obtain ⟨h1, h2⟩ := trailingZeros_spec h hx
  exact ⟨by omega, h2⟩

example : leadingZeros 64 0b101000 = 58 ∧ trailingZeros 0b101000 = 3 := by decide

/-- `x as usize` of an `i16` is the sign extension to 64 bits. -/
theorem C86_sign_extension {x : Nat} (h : x < 2 ^ 16) :
    Hand.i16AsUsize x = ((BitVec.ofNat 16 x).signExtend 64).toNat := by
  unfold Hand.i16AsUsize
  rw [BitVec.toNat_signExtend]
  have hm : (BitVec.ofNat 16 x).msb = decide (2 ^ 15 ≤ x) := by
    rw [BitVec.msb_eq_decide]
    simp
    omega
  rw [hm]
  simp only [BitVec.toNat_setWidth, BitVec.toNat_ofNat]
  by_cases hc : x < 2 ^ 15
  · rw [if_pos hc]
    simp only [show ¬ 2 ^ 15 ≤ x by omega, decide_false]
    norm_num
    omega
  · rw [if_neg hc]
    simp only [show 2 ^ 15 ≤ x by omega, decide_true, if_true]
    norm_num
    omega

example : Hand.i16AsUsize 0xffff = 2 ^ 64 - 1 ∧ Hand.i16AsUsize 1325 = 1325 := by decide

/-- Indexing the characters of a text: the character at the position, or a panic when the text has no such position. -/
theorem C86_text_index (cv : List Char) (i : Nat) :
    (∀ h : i < cv.length, charAt cv i = .ok cv[i]) ∧ (cv.length ≤ i → charAt cv i = .error .index) := by
  unfold charAt
  constructor
  · intro h
    rw [List.getElem?_eq_getElem h]
  · intro h
    rw [List.getElem?_eq_none h]

/-! ## The two index functions -/

/-- `get_card_index` for any two `u8`.  It is outside its table, or has already panicked, for twice the card 0, for two numbers
above 101, and when the position is beyond the 1326 entries. -/
theorem C86_card_index {a b : Nat} (ha : a < 256) (hb : b < 256) (m : Profile) :
    getCardIndexB m a b =
      if 101 < min a b ∨ (a = 0 ∧ b = 0) then (match m with | .debug => .panic | .release => .undefined)
      else if min a b * (101 - min a b) / 2 + max a b - 1 < 1326 then .ok (getCardIndex a b) else .undefined := by
  have e1 : (if a > b then b else a) = min a b := by split <;> omega
  have e2 : (if a > b then a else b) = max a b := by split <;> omega
  unfold getCardIndexB getCardIndex cardMapIndex
  simp only [e1, e2]
  have h1 : min a b ≤ max a b := by omega
  have h2 : max a b < 256 := by omega
  have h3 : (a = 0 ∧ b = 0) ↔ max a b = 0 := by omega
  simp only [h3]
  clear e1 e2 h3
  generalize min a b = x at *
  generalize max a b = y at *
  by_cases hx : 101 < x
  · rw [if_pos (Or.inl hx)]
    cases m with
    | debug => rw [subB_debug (by omega)]; rfl
    | release =>
      rw [subB_release (by norm_num) (by omega), Ran.bind_ok, Nat.mod_eq_of_lt (by omega), mulB_release, Ran.bind_ok,
        addB_release, Ran.bind_ok]
      have e : x * (101 + 2 ^ 64 - x) % 2 ^ 64 = 2 ^ 64 - x * (x - 101) := by
        have hle : x * (x - 101) ≤ 255 * 154 := Nat.mul_le_mul (by omega) (by omega)
        have hpos : 1 ≤ x * (x - 101) := Nat.mul_pos (by omega) (by omega)
        have hx2 : x * (101 + 2 ^ 64 - x) + x * (x - 101) = x * 2 ^ 64 := by
          rw [← Nat.mul_add]
          congr 1
          omega
        have : x * (101 + 2 ^ 64 - x) = (x - 1) * 2 ^ 64 + (2 ^ 64 - x * (x - 101)) := by
          have : x * 2 ^ 64 = (x - 1) * 2 ^ 64 + 2 ^ 64 := by
            rw [← Nat.succ_mul]
            congr 1
            omega
          omega
        rw [this, Nat.mul_add_mod_self_right, Nat.mod_eq_of_lt (by omega)]
      rw [e]
      have hle : x * (x - 101) ≤ 255 * 154 := Nat.mul_le_mul (by omega) (by omega)
      rw [subB_ok (by omega), Ran.bind_ok, readB_undefined]
      · rfl
      · show ¬ _ < 1326
        omega
  · have hm : x * (101 - x) ≤ 101 * 101 := Nat.mul_le_mul (by omega) (by omega)
    rw [subB_ok (by omega), Ran.bind_ok, mulB_ok (by omega), Ran.bind_ok, addB_ok (by omega), Ran.bind_ok]
    by_cases hy : y = 0
    · have : x = 0 := by omega
      subst hy this
      rw [if_pos (Or.inr rfl)]
      cases m <;> decide
    · rw [if_neg (by omega), subB_ok (by omega), Ran.bind_ok]
      by_cases hc : x * (101 - x) / 2 + y - 1 < 1326
      · rw [if_pos hc, readB_ok (show _ < 1326 from hc)]
        rfl
      · rw [if_neg hc, readB_undefined (show ¬ _ < 1326 from hc)]
        rfl

/-- For two numbers of cards the only pair outside the table is twice the card 0. -/
theorem C86_card_index_deck {a b : Nat} (ha : a < 52) (hb : b < 52) (m : Profile) :
    getCardIndexB m a b =
      if a = 0 ∧ b = 0 then (match m with | .debug => .panic | .release => .undefined) else .ok (getCardIndex a b) := by
  rw [C86_card_index (by omega) (by omega)]
  have h1 : ¬ 101 < min a b := by omega
  simp only [h1, false_or]
  by_cases h0 : a = 0 ∧ b = 0
  · rw [if_pos h0, if_pos h0]
  · rw [if_neg h0, if_neg h0, if_pos]
    have hxy : min a b ≤ max a b := by omega
    have hy : max a b < 52 := by omega
    generalize min a b = x at *
    generalize max a b = y at *
    have : ∀ x < 52, ∀ y < 52, x * (101 - x) / 2 + y - 1 < 1326 := by decide
    exact this x (by omega) y hy

/-- Twice another card gives the index of a hand that does not contain it twice: the one of the card before and the last card. -/
theorem C86_equal_cards {c : Nat} (h0 : 0 < c) (h : c < 52) (m : Profile) :
    getCardIndexB m c c = .ok (getCardIndex (c - 1) 51) := by
  rw [C86_card_index_deck h h, if_neg (by omega)]
  have : ∀ c < 52, 0 < c → cardMapIndex c c = cardMapIndex (c - 1) 51 := by decide
  unfold getCardIndex
  rw [this c h h0]

example : getCardIndexB .debug 0 0 = .panic ∧ getCardIndexB .release 0 0 = .undefined ∧
    getCardIndexB .debug 51 52 = .undefined ∧ getCardIndexB .debug 102 103 = .panic ∧
    getCardIndexB .release 102 103 = .undefined ∧ getCardIndexB .debug 0 60 = .ok (getCardIndex 1 10) := by decide +kernel

/-- `Hand::get_card_index` for any hand.  It looks only at the lowest bit `s` and the highest bit `b` of the mask: between them
there may be any other cards.  The empty mask panics in a debug build and reads outside the table in a release build. -/
theorem C86_hand_index (m : Profile) {h : Hand} (hm : h.mask < 2 ^ 64) :
    h.getCardIndexB m =
      if h.mask = 0 then (match m with | .debug => .panic | .release => .undefined)
      else
        let s := trailingZeros h.mask
        let b := 63 - leadingZeros 64 h.mask
        if 64 * s + b < 3837 then
          (if s < b ∧ s % 16 < 13 ∧ b % 16 < 13 then .ok (getCardIndex (bitCard s) (bitCard b)) else .ok (2 ^ 64 - 1))
        else .undefined := by
  unfold Hand.getCardIndexB
  by_cases h0 : h.mask = 0
  · rw [if_pos h0, h0]
    cases m <;> decide
  · rw [if_neg h0]
    obtain ⟨l1, l2, l3⟩ := highBit_spec h0 hm
    obtain ⟨t1, t2, t3⟩ := trailingZeros_spec h0 hm
    have hle := low_le_high h0 hm
    simp only
    rw [subB_ok l1, Ran.bind_ok, or_shift_six (by omega)]
    generalize trailingZeros h.mask = s at *
    generalize 63 - leadingZeros 64 h.mask = b at *
    have hb : b < 64 := by
      by_contra hc
      have := Nat.ge_two_pow_of_testBit l2
      have : 2 ^ 64 ≤ 2 ^ b := Nat.pow_le_pow_right (by decide) (by omega)
      omega
    by_cases hc : 64 * s + b < 3837
    · rw [if_pos hc, readB_ok (show _ < 3837 from hc), Ran.bind_ok, Ran.pure_eq, maskMap_all s (by omega) b hb hle hc]
      split <;> rfl
    · rw [if_neg hc, readB_undefined (show ¬ _ < 3837 from hc)]
      rfl

/-- The masks outside the table: the multiples of `2^60`, and those of `2^59` from `2^61` on. -/
theorem C86_hand_index_bounds {x : Nat} (h0 : x ≠ 0) (hx : x < 2 ^ 64) :
    3837 ≤ 64 * trailingZeros x + (63 - leadingZeros 64 x) ↔ 2 ^ 60 ∣ x ∨ (2 ^ 59 ∣ x ∧ 2 ^ 61 ≤ x) := by
  obtain ⟨t1, t2, t3⟩ := trailingZeros_spec h0 hx
  obtain ⟨l1, l2, l3⟩ := highBit_spec h0 hx
  have hle := low_le_high h0 hx
  have hdvd : ∀ k, 2 ^ k ∣ x ↔ k ≤ trailingZeros x := by
    intro k
    constructor
    · rintro ⟨y, hy⟩
      by_contra hc
      have : x.testBit (trailingZeros x) = false := by
        generalize trailingZeros x = t at hc
        rw [hy, Nat.testBit_two_pow_mul, decide_eq_false (show ¬ k ≤ t from hc), Bool.false_and]
      rw [t2] at this
      exact absurd this (by decide)
    · intro hk
      rw [Nat.dvd_iff_mod_eq_zero]
      apply Nat.eq_of_testBit_eq
      intro i
      rw [Nat.testBit_mod_two_pow, Nat.zero_testBit]
      by_cases hi : i < k
      · rw [t3 i (by omega), Bool.and_false]
      · simp [hi]
  have hpow : 2 ^ 61 ≤ x ↔ 61 ≤ 63 - leadingZeros 64 x := by
    constructor
    · intro h
      by_contra hc
      have : x < 2 ^ 61 := by
        apply Nat.lt_pow_two_of_testBit
        intro i hi
        exact l3 i (by omega)
      omega
    · intro h
      exact le_trans (Nat.pow_le_pow_right (by decide) h) (Nat.ge_two_pow_of_testBit l2)
  rw [hdvd, hdvd, hpow]
  omega

/-- Of the masks of real cards only one is outside the table: that of card 48 (the ace of the first suit) alone. -/
theorem C86_hand_index_cards {x : Nat} (h0 : x ≠ 0) (hx : x < 2 ^ 64) (hc : ∀ i, x.testBit i = true → i % 16 < 13) :
    3837 ≤ 64 * trailingZeros x + (63 - leadingZeros 64 x) ↔ x = (CARDS 48).mask := by
  rw [C86_hand_index_bounds h0 hx, show (CARDS 48).mask = 2 ^ 60 by decide]
  constructor
  · intro h
    have hb : ∀ i, 61 ≤ i → x.testBit i = false := by
      intro i hi
      by_contra hf
      have hf : x.testBit i = true := by simpa using hf
      have h1 := hc i hf
      have : 2 ^ 64 ≤ 2 ^ i := Nat.pow_le_pow_right (by decide) (by omega)
      have := Nat.ge_two_pow_of_testBit hf
      omega
    have hlt : x < 2 ^ 61 := Nat.lt_pow_two_of_testBit _ hb
    rcases h with ⟨y, rfl⟩ | ⟨_, h⟩
    · omega
    · omega
  · rintro rfl
    exact Or.inl (Nat.dvd_refl _)

example : Hand.default.getCardIndexB .debug = .panic ∧ Hand.default.getCardIndexB .release = .undefined ∧
    (CARDS 5).getCardIndexB .release = .ok (2 ^ 64 - 1) ∧ (CARDS 48).getCardIndexB .debug = .undefined ∧
    (Hand.fromBitMask (2 ^ 52 - 1)).getCardIndexB .debug = .ok (getCardIndex 3 48) := by decide +kernel

/-! ## Reading a hand -/

/-- `contains` for any `u8`: a debug build panics exactly when the shift reaches 64, a release build takes it modulo 64. -/
theorem C86_contains (h : Hand) {card : Nat} (hc : card < 256) :
    h.containsB .debug card = (if 64 * (card % 4 + 1) ≤ card then .panic else .ok (h.contains card)) ∧
    h.containsB .release card = .ok (h.mask.testBit (((3 - card % 4) * 16 + card / 4) % 64)) := by
  have hb : ∀ s, (h.mask &&& (1 <<< s) != 0) = h.mask.testBit s := by
    intro s
    rw [Bool.eq_iff_iff, bne_iff_ne, Nat.and_comm]
    exact and_one_ne_zero s h.mask
  constructor
  · unfold Hand.containsB
    by_cases hp : 64 * (card % 4 + 1) ≤ card
    · rw [if_pos hp, shiftB_debug (by omega)]
      rfl
    · rw [if_neg hp, shiftB_ok (by omega)]
      rfl
  · unfold Hand.containsB
    rw [shiftB_release, Ran.bind_ok, hb]
    rfl

/-- So numbers from 52 on can name a bit of another card: 67 asks for card 2. -/
example (h : Hand) : h.containsB .debug 67 = h.containsB .debug 2 ∧ h.containsB .debug 64 = .panic ∧
    h.containsB .release 64 = h.containsB .release 3 := by
  rw [(C86_contains h (by decide)).1, (C86_contains h (by decide)).1, (C86_contains h (by decide)).1,
    (C86_contains h (by decide)).2, (C86_contains h (by decide)).2]
  exact ⟨rfl, rfl, rfl⟩

/-- `get_suit_mask` for any `u8`: from 4 on a debug build panics, a release build takes the suit modulo 4. -/
theorem C86_suit_mask (h : Hand) {suit : Nat} (hs : suit < 256) :
    h.getSuitMaskB .debug suit = (if suit < 4 then .ok (h.getSuitMask suit) else .panic) ∧
    h.getSuitMaskB .release suit = .ok (h.getSuitMask (suit % 4)) := by
  unfold Hand.getSuitMaskB
  constructor
  · by_cases h4 : suit < 4
    · rw [if_pos h4, subB_ok (by omega), Ran.bind_ok, mulB_ok (by omega), Ran.bind_ok, shiftB_ok (by omega)]
      rfl
    · rw [if_neg h4, subB_debug (by omega)]
      rfl
  · rw [subB_release (by decide) (by omega), Ran.bind_ok, mulB_release, Ran.bind_ok, shiftB_release, Ran.bind_ok,
      show 16 * ((3 + 2 ^ 8 - suit) % 2 ^ 8) % 2 ^ 8 % 64 = 16 * (3 - suit % 4) by omega]
    rfl

/-- `suit_count` for any `u8`: from 4 on a debug build panics, a release build reads another group of four counter bits. -/
theorem C86_suit_count (h : Hand) {suit : Nat} (hs : suit < 256) :
    h.suitCountB .debug suit = (if suit < 4 then .ok (h.suitCount suit) else .panic) ∧
    h.suitCountB .release suit =
      .ok ((((h.getCounters >>> ((4 * suit + 16) % 32)) &&& 0xf : Nat) : Int) - 3) := by
  unfold Hand.suitCountB
  rw [show SUITS_SHIFT - 32 = 16 from rfl]
  constructor
  · by_cases h4 : suit < 4
    · rw [if_pos h4, mulB_ok (by omega), Ran.bind_ok, addB_ok (by omega), Ran.bind_ok, shiftB_ok (by omega)]
      rfl
    · rw [if_neg h4]
      by_cases h1 : 4 * suit < 2 ^ 8
      · rw [mulB_ok h1, Ran.bind_ok]
        by_cases h2 : 4 * suit + 16 < 2 ^ 8
        · rw [addB_ok h2, Ran.bind_ok, shiftB_debug (by omega)]
          rfl
        · rw [addB_debug h2]
          rfl
      · rw [mulB_debug h1]
        rfl
  · rw [mulB_release, Ran.bind_ok, addB_release, Ran.bind_ok, shiftB_release, Ran.bind_ok,
      show (4 * suit % 2 ^ 8 + 16) % 2 ^ 8 % 32 = (4 * suit + 16) % 32 by omega]
    rfl

/-- Suit 4 of a release build is the number of cards less 3, suit 8 the first suit again. -/
theorem C86_suit_count_wrap (h : Hand) :
    h.suitCountB .release 4 = .ok ((h.count : Int) - 3) ∧ h.suitCountB .release 8 = .ok (h.suitCount 0) := by
  rw [(C86_suit_count h (by decide)).2, (C86_suit_count h (by decide)).2]
  exact ⟨rfl, rfl⟩

example : (Hand.fromHoleCards 0 4 + Hand.default).suitCountB .debug 0 = .ok 2 ∧
    (Hand.fromHoleCards 0 4 + Hand.default).suitCountB .debug 4 = .panic ∧
    (Hand.fromHoleCards 0 4 + Hand.default).suitCountB .release 4 = .ok (-1) := by decide +kernel

/-! ## Building a hand -/

/-- `from_hole_cards` for any two `u8`: it returns the hand of two numbers of cards, also of twice the same, and panics otherwise. -/
theorem C86_hole_cards (m : Profile) (c1 c2 : Nat) :
    Hand.fromHoleCardsB m c1 c2 = if c1 < 52 ∧ c2 < 52 then .ok (Hand.fromHoleCards c1 c2) else .panic := by
  unfold Hand.fromHoleCardsB Hand.cardB
  by_cases h1 : c1 < 52
  · by_cases h2 : c2 < 52
    · rw [if_pos h1, if_pos h2, if_pos ⟨h1, h2⟩, Ran.bind_ok, Ran.bind_ok]
      have hk : ∀ c < 52, (CARDS c).key < 2 ^ 61 := by decide
      cases m with
      | debug =>
        rw [Hand.addB_debug, if_pos (by have := hk c1 h1; have := hk c2 h2; omega)]
        rfl
      | release => rw [Hand.addB_release]; rfl
    · rw [if_pos h1, if_neg h2, if_neg (by omega)]
      rfl
  · rw [if_neg h1, Ran.bind_panic, if_neg (fun h => h1 h.1)]

/-- `from_bit_mask` for any `u64`.  A release build always returns the hand of the cards of the mask.  A debug build panics exactly
when the key does not fit into 64 bits, which depends only on the number of cards of each suit. -/
theorem C86_from_bit_mask (mask : Nat) :
    Hand.fromBitMaskB .release mask = .ok (Hand.fromBitMask mask) ∧
    Hand.fromBitMaskB .debug mask =
      if (3 + suitCnt (maskCards mask) 0) + 16 * (3 + suitCnt (maskCards mask) 1) + 256 * (3 + suitCnt (maskCards mask) 2) +
        4096 * (3 + suitCnt (maskCards mask) 3) < 2 ^ 16 then .ok (Hand.fromBitMask mask) else .panic := by
  have hf : (List.range CARD_COUNT).filter (fun c => decide (mask &&& (1 <<< c) ≠ 0)) = maskCards mask := by
    unfold maskCards
    apply List.filter_congr
    intro c _
    rw [Bool.eq_iff_iff, decide_eq_true_eq, Nat.and_comm]
    exact and_one_ne_zero c mask
  have hc := maskCards_isCards mask
  have hfold : (maskCards mask).foldl (fun b c => b + CARDS c) Hand.default = Hand.fromBitMask mask := by
    rw [fixedBoard_eq]
    rfl
  unfold Hand.fromBitMaskB
  rw [foldlM_filter, hf, foldlM_filter, hf, foldlM_addB_release, foldlM_addB_debug _ _ (by decide), hfold]
  refine ⟨rfl, ?_⟩
  rw [keySum_eq _ hc.2, default_key]
  have hl := length_eq_suits (maskCards mask)
  have hr := rankSum_le (maskCards mask)
  have h52 : (maskCards mask).length ≤ 52 := le_trans (List.length_filter_le _ _) (by simp)
  congr 1
  apply propext
  constructor <;> intro h <;> omega

/-- Twelve cards of each suit fit; thirteen of the last suit do not. -/
example : Hand.fromBitMaskB .debug (2 ^ 48 - 1) = .ok (Hand.fromBitMask (2 ^ 48 - 1)) ∧
    Hand.fromBitMaskB .debug (2 ^ 52 - 1) = .panic ∧ Hand.fromBitMaskB .debug 0x8888888888888 = .panic := by
  decide +kernel

/-! ## The evaluator -/

/-- `evaluate` and `evaluate_without_flush` for any hand: they never panic, and when the reads are inside the tables they return
the score. -/
theorem C86_evaluate (h : Hand) :
    h.evaluateWithoutFlushB =
      (if h.getRankKey < 33550336 ∧ (h.getRankKey + PERF_HASH_OFFSETS.get (h.getRankKey / 4096)) % 2 ^ 32 < 86362
        then .ok h.evaluateWithoutFlush else .undefined) ∧
    h.evaluateB = if h.hasFlush then (if h.getFlushKey < 8192 then .ok h.evaluate else .undefined)
      else (if h.getRankKey < 33550336 ∧ (h.getRankKey + PERF_HASH_OFFSETS.get (h.getRankKey / 4096)) % 2 ^ 32 < 86362
        then .ok h.evaluate else .undefined) := by
  have key : (do
      let offset ← readB PERF_HASH_OFFSETS (h.getRankKey >>> PERF_HASH_ROW_SHIFT)
      readB LOOKUP ((h.getRankKey + offset) % 2 ^ 32)) =
      (if h.getRankKey < 33550336 ∧ (h.getRankKey + PERF_HASH_OFFSETS.get (h.getRankKey / 4096)) % 2 ^ 32 < 86362
        then .ok h.evaluateWithoutFlush else .undefined) := by
    have e : h.getRankKey >>> PERF_HASH_ROW_SHIFT = h.getRankKey / 4096 := Nat.shiftRight_eq_div_pow _ _
    unfold Hand.evaluateWithoutFlush
    simp only [e]
    by_cases h1 : h.getRankKey < 33550336
    · rw [readB_ok (show _ < 8191 by omega), Ran.bind_ok]
      by_cases h2 : (h.getRankKey + PERF_HASH_OFFSETS.get (h.getRankKey / 4096)) % 2 ^ 32 < 86362
      · rw [if_pos ⟨h1, h2⟩, readB_ok (show _ < 86362 from h2)]
      · rw [if_neg (fun h => h2 h.2), readB_undefined (show ¬ _ < 86362 from h2)]
    · rw [if_neg (fun h => h1 h.1), readB_undefined (show ¬ _ < 8191 by omega)]
      rfl
  refine ⟨key, ?_⟩
  unfold Hand.evaluateB Hand.evaluate
  by_cases hf : h.hasFlush = true
  · simp only [hf, if_true]
    by_cases h1 : h.getFlushKey < 8192
    · rw [if_pos h1, readB_ok (show _ < 8192 from h1)]
    · rw [if_neg h1, readB_undefined (show ¬ _ < 8192 from h1)]
  · simp only [hf, Bool.false_eq_true, if_false]
    exact key

/-- Every hand of at most seven different cards is inside the tables. -/
theorem C86_evaluate_cards {cs : List Nat} (h : IsCards cs) (h7 : cs.length ≤ 7) :
    (ofCards cs).evaluateB = .ok (ofCards cs).evaluate ∧
    (ofCards cs).evaluateWithoutFlushB = .ok (ofCards cs).evaluateWithoutFlush := by
  obtain ⟨b1, b2, b3⟩ := C06_evaluate_in_bounds h h7
  rw [show (ofCards cs).getRankKey >>> PERF_HASH_ROW_SHIFT = (ofCards cs).getRankKey / 4096 from Nat.shiftRight_eq_div_pow _ _]
    at b1 b2
  have g1 : (ofCards cs).getRankKey / 4096 < 8191 := b1
  have g2 : (ofCards cs).getRankKey < 33550336 ∧
      ((ofCards cs).getRankKey + PERF_HASH_OFFSETS.get ((ofCards cs).getRankKey / 4096)) % 2 ^ 32 < 86362 := ⟨by omega, b2⟩
  obtain ⟨e1, e2⟩ := C86_evaluate (ofCards cs)
  rw [e1, e2, if_pos g2, if_pos g2, if_pos (show (ofCards cs).getFlushKey < 8192 from b3)]
  exact ⟨by split <;> rfl, rfl⟩

/-- Eight different cards are not: the hand of the aces and the kings, built from a bit mask without any panic in either build,
makes `evaluate` read outside `PERF_HASH_OFFSETS`. -/
theorem C86_eight_cards :
    Hand.fromBitMaskB .debug (2 ^ 52 - 2 ^ 44) = .ok (Hand.fromBitMask (2 ^ 52 - 2 ^ 44)) ∧
    Hand.fromBitMaskB .release (2 ^ 52 - 2 ^ 44) = .ok (Hand.fromBitMask (2 ^ 52 - 2 ^ 44)) ∧
    (maskCards (2 ^ 52 - 2 ^ 44)).length = 8 ∧
    (Hand.fromBitMask (2 ^ 52 - 2 ^ 44)).evaluateB = .undefined ∧
    (Hand.fromBitMask (2 ^ 52 - 2 ^ 44)).evaluateWithoutFlushB = .undefined := by
  decide +kernel

/-- A hand with arbitrary fields can leave any of the three tables. -/
example : (Hand.mk 0xffffffff 0).evaluateB = .undefined ∧ (Hand.mk (2 ^ 63) (2 ^ 13)).evaluateB = .undefined ∧
    (Hand.mk (1332 * 4096 + 4095) 0).evaluateB = .undefined := by decide +kernel

/-! ## `get_draw` -/

/-- What `get_draw` adds for category 5 when it has chosen the suit `s`. -/
def madeFlush (holeCards board : Hand) (s : Nat) : Nat :=
  if (board.getSuitMask s &&& 0b1111100000000 ^^^ 0b1111100000000) &&& 0b1111100000000 = 0 ∨
    holdsNutCard (board.getSuitMask s) (holeCards.getSuitMask s) = true then 128 else 0

theorem nutFlushB_suit (m : Profile) {holeCards board hand : Hand} {s x : Nat}
    (hs : ((List.range 4).find? (fun i => decide (hand.suitCount i ≥ 5))).getD 255 = s)
    (hx : board.getSuitMaskB m s = .ok (board.getSuitMask x)) (hy : holeCards.getSuitMaskB m s = .ok (holeCards.getSuitMask x)) :
    nutFlushB m holeCards board hand = .ok (madeFlush holeCards board x) := by
  unfold nutFlushB madeFlush holdsNutCard
  simp only [hs, hx, hy, Ran.bind_ok, beq_iff_eq]
  split
  · rename_i h; rw [if_pos (Or.inl h)]; rfl
  · rename_i h
    split
    · rename_i h'; rw [if_pos (Or.inr h')]; rfl
    · rename_i h'; rw [if_neg (by rintro (h1 | h1); exacts [h h1, h' h1])]; rfl

/-- `get_draw` for any two hands and any category.  A debug build panics exactly when the sum of the keys does not fit into 64
bits, or when the category is 5 and no suit has five cards.  A release build never panics; without a suit of five cards it takes
the last suit for the flush. -/
theorem C86_draw (holeCards board : Hand) (rank : Nat) :
    getDrawB .debug holeCards board rank =
      (if holeCards.key + board.key < 2 ^ 64 then (match getDraw holeCards board rank with | some d => .ok d | none => .panic)
        else .panic) ∧
    getDrawB .release holeCards board rank = .ok ((getDraw holeCards board rank).getD (madeFlush holeCards board 3)) := by
  have hrest : ∀ m : Profile, Hand.addB m holeCards board = .ok (holeCards + board) →
      (∀ s, (List.range 4).find? (fun i => decide ((holeCards + board).suitCount i ≥ 5)) = some s →
        getDrawB m holeCards board rank = .ok ((getDraw holeCards board rank).getD 0) ∧ (getDraw holeCards board rank).isSome) ∧
      (rank ≠ 5 → getDrawB m holeCards board rank = .ok ((getDraw holeCards board rank).getD 0) ∧
        (getDraw holeCards board rank).isSome) ∧
      ((List.range 4).find? (fun i => decide ((holeCards + board).suitCount i ≥ 5)) = none → rank = 5 →
        getDraw holeCards board rank = none ∧
        getDrawB m holeCards board rank = (nutFlushB m holeCards board (holeCards + board) >>= fun d => .ok (0 ||| d))) := by
    intro m hadd
    unfold getDrawB
    rw [hadd, Ran.bind_ok]
    refine ⟨?_, ?_, ?_⟩
    · intro s hs
      have h4 : s < 4 := List.mem_range.1 (List.mem_of_find?_eq_some hs)
      unfold getDraw nutFlush
      simp only [hs]
      have hb : ∀ h : Hand, h.getSuitMaskB m s = .ok (h.getSuitMask s) := by
        intro h
        cases m with
        | debug => rw [(C86_suit_mask h (by omega)).1, if_pos h4]
        | release => rw [(C86_suit_mask h (by omega)).2, Nat.mod_eq_of_lt h4]
      rw [nutFlushB_suit m (s := s) (x := s) (by rw [hs]; rfl) (hb board) (hb holeCards)]
      unfold madeFlush
      by_cases h5 : rank = 5
      · simp only [h5, if_true, Ran.bind_ok, Ran.pure_eq]
        by_cases h0 : (board.getSuitMask s &&& 0b1111100000000 ^^^ 0b1111100000000) &&& 0b1111100000000 = 0
        · simp only [h0, true_or, if_true, Option.map_some, Option.getD_some]
          exact ⟨trivial, rfl⟩
        · by_cases h1 : holdsNutCard (board.getSuitMask s) (holeCards.getSuitMask s) = true
          · simp only [h0, h1, or_true, if_true, if_false, Option.map_some, Option.getD_some]
            exact ⟨trivial, rfl⟩
          · simp only [h0, h1, or_self, if_false, Option.map_some, Option.getD_some, Bool.false_eq_true]
            exact ⟨trivial, rfl⟩
      · simp only [h5, if_false]
        exact ⟨rfl, rfl⟩
    · intro h5
      unfold getDraw
      simp only [h5, if_false]
      exact ⟨rfl, rfl⟩
    · intro hn h5
      subst h5
      unfold getDraw nutFlush
      simp only [hn]
      exact ⟨rfl, rfl⟩
  constructor
  · by_cases hk : holeCards.key + board.key < 2 ^ 64
    · rw [if_pos hk]
      obtain ⟨r1, r2, r3⟩ := hrest .debug (by rw [Hand.addB_debug, if_pos hk])
      by_cases h5 : rank = 5
      · cases hf : (List.range 4).find? (fun i => decide ((holeCards + board).suitCount i ≥ 5)) with
        | some s =>
          obtain ⟨g1, g2⟩ := r1 s hf
          rw [g1]
          obtain ⟨d, hd⟩ := Option.isSome_iff_exists.1 g2
          rw [hd]; rfl
        | none =>
          obtain ⟨g1, g2⟩ := r3 hf h5
          rw [g1, g2]
          unfold nutFlushB
          simp only [hf, Option.getD_none]
          rw [(C86_suit_mask board (by decide)).1]
          rfl
      · obtain ⟨g1, g2⟩ := r2 h5
        rw [g1]
        obtain ⟨d, hd⟩ := Option.isSome_iff_exists.1 g2
        rw [hd]; rfl
    · rw [if_neg hk]
      unfold getDrawB
      rw [Hand.addB_debug, if_neg hk]
      rfl
  · obtain ⟨r1, r2, r3⟩ := hrest .release (Hand.addB_release _ _)
    by_cases h5 : rank = 5
    · cases hf : (List.range 4).find? (fun i => decide ((holeCards + board).suitCount i ≥ 5)) with
      | some s =>
        obtain ⟨g1, g2⟩ := r1 s hf
        rw [g1]
        obtain ⟨d, hd⟩ := Option.isSome_iff_exists.1 g2
        rw [hd]; rfl
      | none =>
        obtain ⟨g1, g2⟩ := r3 hf h5
        rw [g1, g2, nutFlushB_suit .release (s := 255) (x := 3) (by rw [hf]; rfl) (C86_suit_mask board (by decide)).2
          (C86_suit_mask holeCards (by decide)).2, Ran.bind_ok, Nat.zero_or]
        rfl
    · obtain ⟨g1, g2⟩ := r2 h5
      rw [g1]
      obtain ⟨d, hd⟩ := Option.isSome_iff_exists.1 g2
      rw [hd]; rfl

/-- Category 5 for a hand without a flush: the debug build panics, the release build answers for the last suit. -/
example :
    getDrawB .debug (Hand.fromHoleCards 51 0) (ofCards [4, 9, 14]) 5 = .panic ∧
    getDrawB .release (Hand.fromHoleCards 51 0) (ofCards [4, 9, 14]) 5 = .ok 128 ∧
    getDrawB .release (Hand.fromHoleCards 50 0) (ofCards [4, 9, 14]) 5 = .ok 0 := by decide +kernel

end Pokers
