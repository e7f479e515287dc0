import Verif.Model.Unchecked
import Verif.Proofs.IndexFacts
import Verif.Proofs.HandAlgebra
/-! Lemmas on the functions of `Model/Unchecked.lean`. -/
namespace Pokers
open Spec

@[simp] theorem Ran.bind_ok {α β : Type} (a : α) (f : α → Ran β) : (Ran.ok a >>= f) = f a := rfl
@[simp] theorem Ran.bind_panic {α β : Type} (f : α → Ran β) : ((Ran.panic : Ran α) >>= f) = .panic := rfl
@[simp] theorem Ran.bind_undefined {α β : Type} (f : α → Ran β) : ((Ran.undefined : Ran α) >>= f) = .undefined := rfl
@[simp] theorem Ran.pure_eq {α : Type} (a : α) : (pure a : Ran α) = .ok a := rfl

theorem addB_ok {m : Profile} {w a b : Nat} (h : a + b < 2 ^ w) : addB m w a b = .ok (a + b) := by simp [addB, h]
theorem subB_ok {m : Profile} {w a b : Nat} (h : b ≤ a) : subB m w a b = .ok (a - b) := by simp [subB, h]
theorem mulB_ok {m : Profile} {w a b : Nat} (h : a * b < 2 ^ w) : mulB m w a b = .ok (a * b) := by simp [mulB, h]
theorem shiftB_ok {m : Profile} {w s : Nat} (h : s < w) : shiftB m w s = .ok s := by simp [shiftB, h]
theorem readB_ok {t : PackedArray} {i : Nat} (h : i < t.len) : readB t i = .ok (t.get i) := by simp [readB, h]
theorem readB_undefined {t : PackedArray} {i : Nat} (h : ¬ i < t.len) : readB t i = .undefined := by simp [readB, h]

theorem addB_release (w a b : Nat) : addB .release w a b = .ok ((a + b) % 2 ^ w) := by
  unfold addB
  by_cases h : a + b < 2 ^ w
  · rw [if_pos h, Nat.mod_eq_of_lt h]
  · rw [if_neg h]

theorem subB_release {w a b : Nat} (ha : a < 2 ^ w) (hb : b < 2 ^ w) : subB .release w a b = .ok ((a + 2 ^ w - b) % 2 ^ w) := by
  unfold subB
  by_cases h : b ≤ a
  · rw [if_pos h, show a + 2 ^ w - b = a - b + 2 ^ w by omega, Nat.add_mod_right, Nat.mod_eq_of_lt (by omega)]
  · rw [if_neg h, Nat.mod_eq_of_lt (by omega)]

theorem mulB_release (w a b : Nat) : mulB .release w a b = .ok (a * b % 2 ^ w) := by
  unfold mulB
  by_cases h : a * b < 2 ^ w
  · rw [if_pos h, Nat.mod_eq_of_lt h]
  · rw [if_neg h]

theorem shiftB_release (w s : Nat) : shiftB .release w s = .ok (s % w) := by
  unfold shiftB
  by_cases h : s < w
  · rw [if_pos h, Nat.mod_eq_of_lt h]
  · rw [if_neg h]

theorem addB_debug {w a b : Nat} (h : ¬ a + b < 2 ^ w) : addB .debug w a b = .panic := by simp only [addB, if_neg h]
theorem subB_debug {w a b : Nat} (h : ¬ b ≤ a) : subB .debug w a b = .panic := by simp only [subB, if_neg h]
theorem mulB_debug {w a b : Nat} (h : ¬ a * b < 2 ^ w) : mulB .debug w a b = .panic := by simp only [mulB, if_neg h]
theorem shiftB_debug {w s : Nat} (h : ¬ s < w) : shiftB .debug w s = .panic := by simp only [shiftB, if_neg h]

/-! Bits. -/

theorem bitLen_bounds {x : Nat} (h : x ≠ 0) : 2 ^ (bitLen x - 1) ≤ x ∧ x < 2 ^ bitLen x ∧ 0 < bitLen x := by
  unfold bitLen
  rw [if_neg h]
  exact ⟨Nat.log2_self_le h, Nat.lt_log2_self, by omega⟩

theorem bitLen_le {x w : Nat} (h : x < 2 ^ w) : bitLen x ≤ w := by
  by_cases h0 : x = 0
  · simp [bitLen, h0]
  · have := bitLen_bounds h0
    by_contra hc
    have : 2 ^ w ≤ 2 ^ (bitLen x - 1) := Nat.pow_le_pow_right (by decide) (by omega)
    omega

theorem trailingZeros_zero : trailingZeros 0 = 64 := by decide

theorem trailingZeros_spec {x : Nat} (h : x ≠ 0) (hx : x < 2 ^ 64) :
    trailingZeros x < 64 ∧ x.testBit (trailingZeros x) = true ∧ ∀ i < trailingZeros x, x.testBit i = false := by
  have hex : ∃ i < 64, x.testBit i = true := by
    obtain ⟨i, hi⟩ := Nat.exists_testBit_of_ne_zero h
    refine ⟨i, ?_, hi⟩
    by_contra hc
    have := Nat.ge_two_pow_of_testBit hi
    have : 2 ^ 64 ≤ 2 ^ i := Nat.pow_le_pow_right (by decide) (by omega)
    omega
  unfold trailingZeros
  cases hf : (List.range 64).find? (fun i => x.testBit i) with
  | none =>
    rw [List.find?_eq_none] at hf
    obtain ⟨i, hi, ht⟩ := hex
    exact absurd ht (hf i (List.mem_range.2 hi))
  | some k =>
    simp only [Option.getD_some]
    rw [List.find?_eq_some_iff_getElem] at hf
    obtain ⟨h1, i, hi, he, hlt⟩ := hf
    simp only [List.getElem_range, List.length_range] at he hi
    subst he
    refine ⟨hi, h1, fun j hj => ?_⟩
    have := hlt j hj
    simpa using this

/-- The highest set bit. -/
theorem highBit_spec {x : Nat} (h : x ≠ 0) (hx : x < 2 ^ 64) :
    leadingZeros 64 x ≤ 63 ∧ x.testBit (63 - leadingZeros 64 x) = true ∧ ∀ i, 63 - leadingZeros 64 x < i → x.testBit i = false := by
  have hb := bitLen_bounds h
  have hl := bitLen_le hx
  have e : 63 - leadingZeros 64 x = bitLen x - 1 := by unfold leadingZeros; omega
  rw [e]
  refine ⟨by unfold leadingZeros; omega, ?_, fun i hi => ?_⟩
  · by_contra hc
    have hc : x.testBit (bitLen x - 1) = false := by simpa using hc
    have : x < 2 ^ (bitLen x - 1) := by
      apply Nat.lt_pow_two_of_testBit
      intro i hi
      rcases Nat.eq_or_lt_of_le hi with rfl | hlt
      · exact hc
      · exact Nat.testBit_lt_two_pow (lt_of_lt_of_le hb.2.1 (Nat.pow_le_pow_right (by decide) (by omega)))
    omega
  · exact Nat.testBit_lt_two_pow (lt_of_lt_of_le hb.2.1 (Nat.pow_le_pow_right (by decide) (by omega)))

theorem low_le_high {x : Nat} (h : x ≠ 0) (hx : x < 2 ^ 64) : trailingZeros x ≤ 63 - leadingZeros 64 x := by
  obtain ⟨_, h2, _⟩ := trailingZeros_spec h hx
  by_contra hc
  have := (highBit_spec h hx).2.2 (trailingZeros x) (by omega)
  rw [h2] at this
  exact absurd this (by decide)

theorem or_shift_six {b s : Nat} (hb : b < 64) : b ||| (s <<< 6) = 64 * s + b := by
  rw [Nat.or_comm, Nat.shiftLeft_eq, Nat.mul_comm, ← Nat.two_pow_add_eq_or_of_lt (i := 6) hb]

/-! The index tables. -/

/-- The card of a bit of the mask of a hand. -/
def bitCard (i : Nat) : Nat := 4 * (i % 16) + (3 - i / 16)

theorem maskMap_all : ∀ s < 60, ∀ b < 64, s ≤ b → 64 * s + b < 3837 →
    Hand.i16AsUsize (MASK_MAP.get (64 * s + b)) =
      if s < b ∧ s % 16 < 13 ∧ b % 16 < 13 then getCardIndex (bitCard s) (bitCard b) else 2 ^ 64 - 1 := by
  decide +kernel

theorem Hand.addB_release (a b : Hand) : Hand.addB .release a b = .ok (a + b) := by
  unfold Hand.addB Pokers.addB
  rw [Hand.add_def]
  by_cases hc : a.key + b.key < 2 ^ 64
  · rw [if_pos hc, Nat.mod_eq_of_lt hc]; rfl
  · rw [if_neg hc]; rfl

theorem Hand.addB_debug (a b : Hand) : Hand.addB .debug a b = if a.key + b.key < 2 ^ 64 then .ok (a + b) else .panic := by
  unfold Hand.addB Pokers.addB
  rw [Hand.add_def]
  by_cases hc : a.key + b.key < 2 ^ 64
  · rw [if_pos hc, if_pos hc, Nat.mod_eq_of_lt hc]; rfl
  · rw [if_neg hc, if_neg hc]; rfl

theorem foldlM_addB_release (cs : List Nat) (h : Hand) :
    cs.foldlM (fun b c => Hand.addB .release b (CARDS c)) h = .ok (cs.foldl (fun b c => b + CARDS c) h) := by
  induction cs generalizing h with
  | nil => rfl
  | cons c cs ih =>
    rw [List.foldlM_cons, List.foldl_cons, Hand.addB_release, Ran.bind_ok]
    exact ih _

theorem foldlM_addB_debug (cs : List Nat) (h : Hand) (hk : h.key < 2 ^ 64) :
    cs.foldlM (fun b c => Hand.addB .debug b (CARDS c)) h =
      if h.key + (cs.map (fun c => (CARDS c).key)).sum < 2 ^ 64 then .ok (cs.foldl (fun b c => b + CARDS c) h) else .panic := by
  induction cs generalizing h with
  | nil => rw [if_pos (by simpa using hk)]; rfl
  | cons c cs ih =>
    rw [List.foldlM_cons, List.foldl_cons, List.map_cons, List.sum_cons, Hand.addB_debug]
    by_cases hc : h.key + (CARDS c).key < 2 ^ 64
    · rw [if_pos hc, Ran.bind_ok, ih _ (by rw [Hand.add_def]; exact Nat.mod_lt _ (by norm_num))]
      have e : (h + CARDS c).key = h.key + (CARDS c).key := by rw [Hand.add_def]; exact Nat.mod_eq_of_lt hc
      rw [e, Nat.add_assoc]
    · rw [if_neg hc, Ran.bind_panic, if_neg (by omega)]

/-- Skipping the cards that are not in the mask. -/
theorem foldlM_filter {α : Type} (p : Nat → Prop) [DecidablePred p] (f : α → Nat → Ran α) (cs : List Nat) (h : α) :
    cs.foldlM (fun b c => if p c then f b c else pure b) h = (cs.filter (fun c => decide (p c))).foldlM f h := by
  induction cs generalizing h with
  | nil => rfl
  | cons c cs ih =>
    rw [List.foldlM_cons]
    by_cases hc : p c
    · rw [List.filter_cons_of_pos (by simpa using hc), List.foldlM_cons, if_pos hc]
      congr 1
      funext b
      exact ih b
    · rw [List.filter_cons_of_neg (by simpa using hc), if_neg hc]
      exact ih h

end Pokers
