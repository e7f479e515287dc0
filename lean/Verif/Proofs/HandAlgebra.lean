import Verif.Model.Hand
import Verif.Spec.Poker
import Mathlib.Tactic.Ring
import Mathlib.Data.Nat.Bitwise
import Mathlib.Tactic.NormNum
import Mathlib.Algebra.BigOperators.Group.List.Basic
/-!
Arithmetic of the packed 64-bit key and of the card mask.
-/
namespace Pokers

/-- The hand built by adding the cards of a list, one after the other, to the default hand. -/
def ofCards (cs : List Nat) : Hand := cs.foldl (fun h c => h + CARDS c) Hand.default

/-- Number of cards of suit `s`. -/
def suitCnt (cs : List Nat) (s : Nat) : Nat := cs.countP (fun c => Nat.beq (Spec.suit c) s)

/-- Sum of the rank keys of the cards. -/
def rankSum (cs : List Nat) : Nat := (cs.map (fun c => RANKS.getD (c / 4) 0)).sum

theorem Hand.add_def (a b : Hand) : a + b = { key := (a.key + b.key) % 2 ^ 64, mask := a.mask ||| b.mask } := rfl

theorem Hand.ext' {a b : Hand} (h1 : a.key = b.key) (h2 : a.mask = b.mask) : a = b := by
  cases a; cases b; simp_all

theorem Hand.add_assoc' (a b c : Hand) : a + b + c = a + (b + c) := by
  simp only [Hand.add_def, Hand.mk.injEq, Nat.or_assoc, and_true]
  omega

theorem Hand.add_comm' (a b : Hand) : a + b = b + a := by
  simp only [Hand.add_def, Nat.or_comm a.mask, Nat.add_comm a.key]

theorem CARDS_key {c : Nat} (h : c < 52) :
    (CARDS c).key = 2 ^ 48 * 16 ^ (c % 4) + 2 ^ 32 + RANKS.getD (c / 4) 0 := by
  revert c; decide

theorem CARDS_mask {c : Nat} (h : c < 52) : (CARDS c).mask = 2 ^ (16 * (3 - c % 4) + c / 4) := by
  revert c; decide

theorem rank_key_le (r : Nat) : RANKS.getD r 0 ≤ 4801683 := by
  by_cases h : r < 13
  · revert r; decide
  · rw [List.getD_eq_default _ _ (by simpa [RANKS] using h)]; omega

theorem rankSum_le (cs : List Nat) : rankSum cs ≤ 4801683 * cs.length := by
  induction cs with
  | nil => simp [rankSum]
  | cons c cs ih =>
    simp only [rankSum, List.map_cons, List.sum_cons, List.length_cons] at *
    have := rank_key_le (c / 4)
    omega

theorem suitCnt_cons (c : Nat) (cs : List Nat) (s : Nat) :
    suitCnt (c :: cs) s = suitCnt cs s + if c % 4 = s then 1 else 0 := by
  unfold suitCnt
  rw [List.countP_cons]
  simp [Spec.suit]

theorem keySum_eq (cs : List Nat) (h : ∀ c ∈ cs, c < 52) :
    (cs.map (fun c => (CARDS c).key)).sum =
      2 ^ 48 * (suitCnt cs 0 + 16 * suitCnt cs 1 + 256 * suitCnt cs 2 + 4096 * suitCnt cs 3)
      + 2 ^ 32 * cs.length + rankSum cs := by
  induction cs with
  | nil => simp [suitCnt, rankSum]
  | cons c cs ih =>
    have hc := h c List.mem_cons_self
    rw [List.map_cons, List.sum_cons, ih (fun x hx => h x (List.mem_cons_of_mem _ hx)), CARDS_key hc]
    simp only [suitCnt_cons, rankSum, List.map_cons, List.sum_cons, List.length_cons]
    have : c % 4 = 0 ∨ c % 4 = 1 ∨ c % 4 = 2 ∨ c % 4 = 3 := by omega
    rcases this with h | h | h | h <;> simp only [h] <;> norm_num <;> ring

theorem foldl_add_key (cs : List Nat) (h : Hand) (hk : h.key < 2 ^ 64) :
    (cs.foldl (fun h c => h + CARDS c) h).key = (h.key + (cs.map (fun c => (CARDS c).key)).sum) % 2 ^ 64 := by
  induction cs generalizing h with
  | nil => simpa using (Nat.mod_eq_of_lt hk).symm
  | cons c cs ih =>
    rw [List.foldl_cons, ih _ (by rw [Hand.add_def]; exact Nat.mod_lt _ (by norm_num)), List.map_cons, List.sum_cons,
      Hand.add_def]
    simp only
    omega

/-- The unwrapped key of a hand. -/
def rawKey (cs : List Nat) : Nat :=
  2 ^ 48 * ((3 + suitCnt cs 0) + 16 * (3 + suitCnt cs 1) + 256 * (3 + suitCnt cs 2) + 4096 * (3 + suitCnt cs 3))
      + 2 ^ 32 * cs.length + rankSum cs

theorem default_key : Hand.default.key = 2 ^ 48 * (3 + 16 * 3 + 256 * 3 + 4096 * 3) := by decide

theorem ofCards_key_mod (cs : List Nat) (h : ∀ c ∈ cs, c < 52) : (ofCards cs).key = rawKey cs % 2 ^ 64 := by
  rw [ofCards, foldl_add_key _ _ (by decide), keySum_eq cs h, default_key, rawKey]
  congr 1
  ring

theorem length_eq_suits (cs : List Nat) :
    cs.length = suitCnt cs 0 + suitCnt cs 1 + suitCnt cs 2 + suitCnt cs 3 := by
  induction cs with
  | nil => rfl
  | cons c cs ih =>
    simp only [suitCnt_cons, List.length_cons, ih]
    have : c % 4 = 0 ∨ c % 4 = 1 ∨ c % 4 = 2 ∨ c % 4 = 3 := by omega
    rcases this with h | h | h | h <;> simp only [h] <;> norm_num <;> omega

theorem rawKey_lt (cs : List Nat) (hs : ∀ s < 4, suitCnt cs s ≤ 12) : rawKey cs < 2 ^ 64 := by
  have h0 := hs 0 (by omega); have h1 := hs 1 (by omega); have h2 := hs 2 (by omega); have h3 := hs 3 (by omega)
  have hl := length_eq_suits cs
  have hr := rankSum_le cs
  unfold rawKey
  omega

theorem ofCards_key (cs : List Nat) (h : ∀ c ∈ cs, c < 52) (hs : ∀ s < 4, suitCnt cs s ≤ 12) :
    (ofCards cs).key = rawKey cs := by
  rw [ofCards_key_mod cs h, Nat.mod_eq_of_lt (rawKey_lt cs hs)]

theorem suitCnt_le_length (cs : List Nat) (s : Nat) : suitCnt cs s ≤ cs.length := List.countP_le_length

/-! Fields of the key. -/

theorem small (cs : List Nat) (hs : ∀ s < 4, suitCnt cs s ≤ 12) : rankSum cs < 2 ^ 32 ∧ cs.length ≤ 48 := by
  have h0 := hs 0 (by omega); have h1 := hs 1 (by omega); have h2 := hs 2 (by omega); have h3 := hs 3 (by omega)
  have hl := length_eq_suits cs
  have hr := rankSum_le cs
  omega


section fields
variable {cs : List Nat} (h : ∀ c ∈ cs, c < 52) (hs : ∀ s < 4, suitCnt cs s ≤ 12)
include h hs

theorem getRankKey_ofCards : (ofCards cs).getRankKey = rankSum cs := by
  rw [Hand.getRankKey, ofCards_key cs h hs, rawKey]
  have := small cs hs
  omega

theorem getCounters_ofCards : (ofCards cs).getCounters =
    2 ^ 16 * ((3 + suitCnt cs 0) + 16 * (3 + suitCnt cs 1) + 256 * (3 + suitCnt cs 2) + 4096 * (3 + suitCnt cs 3))
      + cs.length := by
  have h0 := hs 0 (by omega); have h1 := hs 1 (by omega); have h2 := hs 2 (by omega); have h3 := hs 3 (by omega)
  rw [Hand.getCounters, ofCards_key cs h hs, rawKey, Nat.shiftRight_eq_div_pow]
  have := small cs hs
  omega

theorem key_testBit {s : Nat} (s4 : s < 4) :
    (ofCards cs).key.testBit (51 + 4 * s) = decide (5 ≤ suitCnt cs s) := by
  have h0 := hs 0 (by omega); have h1 := hs 1 (by omega); have h2 := hs 2 (by omega); have h3 := hs 3 (by omega)
  have := small cs hs
  rw [Nat.testBit_eq_decide_div_mod_eq, ofCards_key cs h hs, rawKey]
  congr 1
  rcases (show s = 0 ∨ s = 1 ∨ s = 2 ∨ s = 3 by omega) with rfl | rfl | rfl | rfl <;> norm_num <;> omega

theorem counters_testBit {s : Nat} (s4 : s < 4) :
    (ofCards cs).getCounters.testBit (19 + 4 * s) = decide (5 ≤ suitCnt cs s) := by
  have h0 := hs 0 (by omega); have h1 := hs 1 (by omega); have h2 := hs 2 (by omega); have h3 := hs 3 (by omega)
  have := small cs hs
  rw [Nat.testBit_eq_decide_div_mod_eq, getCounters_ofCards h hs]
  congr 1
  rcases (show s = 0 ∨ s = 1 ∨ s = 2 ∨ s = 3 by omega) with rfl | rfl | rfl | rfl <;> norm_num <;> omega

end fields

theorem and_mask4 (x a b c d : Nat) :
    x &&& (2 ^ a ||| 2 ^ b ||| 2 ^ c ||| 2 ^ d) =
    ((x.testBit a).toNat * 2 ^ a ||| (x.testBit b).toNat * 2 ^ b ||| (x.testBit c).toNat * 2 ^ c |||
      (x.testBit d).toNat * 2 ^ d) := by
  rw [Nat.and_or_distrib_left, Nat.and_or_distrib_left, Nat.and_or_distrib_left,
    Nat.and_two_pow, Nat.and_two_pow, Nat.and_two_pow, Nat.and_two_pow]

theorem hasFlush_ofCards {cs : List Nat} (h : ∀ c ∈ cs, c < 52) (hs : ∀ s < 4, suitCnt cs s ≤ 12) :
    (ofCards cs).hasFlush = true ↔ ∃ s < 4, 5 ≤ suitCnt cs s := by
  unfold Hand.hasFlush
  rw [show FLUSH_CHECK_MASK64 = 2 ^ (51 + 4 * 0) ||| 2 ^ (51 + 4 * 1) ||| 2 ^ (51 + 4 * 2) ||| 2 ^ (51 + 4 * 3) by decide,
    and_mask4, key_testBit h hs (by omega), key_testBit h hs (by omega), key_testBit h hs (by omega),
    key_testBit h hs (by omega)]
  have : (∃ s < 4, 5 ≤ suitCnt cs s) ↔ (5 ≤ suitCnt cs 0 ∨ 5 ≤ suitCnt cs 1 ∨ 5 ≤ suitCnt cs 2 ∨ 5 ≤ suitCnt cs 3) := by
    constructor
    · rintro ⟨s, hs, h⟩
      rcases (show s = 0 ∨ s = 1 ∨ s = 2 ∨ s = 3 by omega) with rfl | rfl | rfl | rfl <;> omega
    · rintro (h | h | h | h)
      exacts [⟨0, by omega, h⟩, ⟨1, by omega, h⟩, ⟨2, by omega, h⟩, ⟨3, by omega, h⟩]
  rw [this]
  by_cases a : 5 ≤ suitCnt cs 0 <;> by_cases b : 5 ≤ suitCnt cs 1 <;> by_cases c : 5 ≤ suitCnt cs 2 <;>
    by_cases d : 5 ≤ suitCnt cs 3 <;> simp [a, b, c, d]

/-! The card mask. -/

theorem foldl_add_mask (cs : List Nat) (h : Hand) (hc : ∀ c ∈ cs, c < 52) (i : Nat) :
    (cs.foldl (fun h c => h + CARDS c) h).mask.testBit i =
      (h.mask.testBit i || cs.any (fun c => decide (16 * (3 - c % 4) + c / 4 = i))) := by
  induction cs generalizing h with
  | nil => simp
  | cons c cs ih =>
    rw [List.foldl_cons, ih _ (fun x hx => hc x (List.mem_cons_of_mem _ hx)), Hand.add_def]
    simp only [Nat.testBit_or, CARDS_mask (hc c List.mem_cons_self), Nat.testBit_two_pow, List.any_cons, Bool.or_assoc]

theorem mask_testBit {cs : List Nat} (hc : ∀ c ∈ cs, c < 52) {s r : Nat} (hs : s < 4) (hr : r < 16) :
    (ofCards cs).mask.testBit (16 * (3 - s) + r) = decide (4 * r + s ∈ cs) := by
  rw [ofCards, foldl_add_mask cs _ hc]
  have : Hand.default.mask.testBit (16 * (3 - s) + r) = false := by simp [Hand.default]
  rw [this, Bool.false_or, Bool.eq_iff_iff]
  simp only [List.any_eq_true, decide_eq_true_eq]
  constructor
  · rintro ⟨c, hcm, he⟩
    have h52 := hc c hcm
    have : c = 4 * r + s := by omega
    exact this ▸ hcm
  · intro hm
    exact ⟨_, hm, by omega⟩

theorem getSuitMask_testBit {cs : List Nat} (hc : ∀ c ∈ cs, c < 52) {s r : Nat} (hs : s < 4) :
    ((ofCards cs).getSuitMask s).testBit r = decide (4 * r + s ∈ cs) := by
  unfold Hand.getSuitMask
  rw [show (0xFFFF : Nat) = 2 ^ 16 - 1 by norm_num]
  rw [Nat.testBit_mod_two_pow, Nat.testBit_and, Nat.testBit_two_pow_sub_one, Nat.testBit_shiftRight]
  by_cases hr : r < 16
  · rw [mask_testBit hc hs hr]; simp [hr]
  · simp [hr]
    intro hm; have := hc _ hm; omega

theorem bitLen_eq {x k : Nat} (h1 : 2 ^ k ≤ x) (h2 : x < 2 ^ (k + 1)) : bitLen x = k + 1 := by
  have hx : x ≠ 0 := by have := Nat.two_pow_pos k; omega
  unfold bitLen
  rw [if_neg hx, (Nat.log2_eq_iff hx).2 ⟨h1, h2⟩]

/-- The flush key is the suit mask of the highest-numbered flush suit. -/
theorem getFlushKey_ofCards {cs : List Nat} (h : ∀ c ∈ cs, c < 52) (hs : ∀ s < 4, suitCnt cs s ≤ 12)
    {s : Nat} (s4 : s < 4) (hf : 5 ≤ suitCnt cs s) (hmax : ∀ t < 4, s < t → suitCnt cs t < 5) :
    (ofCards cs).getFlushKey = (ofCards cs).getSuitMask s := by
  unfold Hand.getFlushKey
  rw [if_pos ((hasFlush_ofCards h hs).2 ⟨s, s4, hf⟩)]
  have e : FLUSH_CHECK_MASK32 = 2 ^ (19 + 4 * 0) ||| 2 ^ (19 + 4 * 1) ||| 2 ^ (19 + 4 * 2) ||| 2 ^ (19 + 4 * 3) := by decide
  have key : leadingZeros 32 ((ofCards cs).getCounters &&& FLUSH_CHECK_MASK32) <<< 2 = 16 * (3 - s) := by
    rw [e, and_mask4, counters_testBit h hs (by omega), counters_testBit h hs (by omega), counters_testBit h hs (by omega),
      counters_testBit h hs (by omega)]
    rcases (show s = 0 ∨ s = 1 ∨ s = 2 ∨ s = 3 by omega) with rfl | rfl | rfl | rfl
    · have a1 := hmax 1 (by omega) (by omega); have a2 := hmax 2 (by omega) (by omega); have a3 := hmax 3 (by omega) (by omega)
      simp [hf, Nat.not_le.2 a1, Nat.not_le.2 a2, Nat.not_le.2 a3]; decide
    · have a2 := hmax 2 (by omega) (by omega); have a3 := hmax 3 (by omega) (by omega)
      by_cases a0 : 5 ≤ suitCnt cs 0 <;> simp [hf, a0, Nat.not_le.2 a2, Nat.not_le.2 a3] <;> decide
    · have a3 := hmax 3 (by omega) (by omega)
      by_cases a0 : 5 ≤ suitCnt cs 0 <;> by_cases a1 : 5 ≤ suitCnt cs 1 <;> simp [hf, a0, a1, Nat.not_le.2 a3] <;> decide
    · by_cases a0 : 5 ≤ suitCnt cs 0 <;> by_cases a1 : 5 ≤ suitCnt cs 1 <;> by_cases a2 : 5 ≤ suitCnt cs 2 <;>
        simp [hf, a0, a1, a2] <;> decide
  simp only [key]
  unfold Hand.getSuitMask
  rw [show (0xFFFF : Nat) = 2 ^ 16 - 1 by norm_num, Nat.and_two_pow_sub_one_eq_mod, Nat.mod_mod]

/-! Order and grouping. -/

theorem foldl_add_start (cs : List Nat) (a b : Hand) :
    cs.foldl (fun h c => h + CARDS c) (a + b) = a + cs.foldl (fun h c => h + CARDS c) b := by
  induction cs generalizing b with
  | nil => rfl
  | cons c cs ih => rw [List.foldl_cons, List.foldl_cons, Hand.add_assoc', ih]

theorem ofCards_cons (c : Nat) (cs : List Nat) : ofCards (c :: cs) = ofCards cs + CARDS c := by
  unfold ofCards
  rw [List.foldl_cons, Hand.add_comm', foldl_add_start, Hand.add_comm']

theorem ofCards_perm {xs ys : List Nat} (h : xs.Perm ys) : ofCards xs = ofCards ys := by
  induction h with
  | nil => rfl
  | cons c _ ih => rw [ofCards_cons, ofCards_cons, ih]
  | swap a b l =>
    rw [ofCards_cons, ofCards_cons, ofCards_cons, ofCards_cons, Hand.add_assoc', Hand.add_assoc', Hand.add_comm' (CARDS a)]
  | trans _ _ h1 h2 => exact h1.trans h2

/-- The sum of the bare cards (without the default hand's bias). -/
theorem ofCards_append (xs ys : List Nat) : ofCards (xs ++ ys) = ys.foldl (fun h c => h + CARDS c) (ofCards xs) := by
  unfold ofCards; rw [List.foldl_append]

end Pokers
