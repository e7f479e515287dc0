import Verif.Model.FastDivide
import Mathlib.Tactic.Ring
import Mathlib.Tactic.Linarith
import Mathlib.Tactic.NormNum
import Mathlib.Data.Nat.Bitwise
import Mathlib.Data.Nat.Prime.Basic
/-!
# Division by a precomputed divisor (C25)
-/
namespace Pokers

theorem isPowerOfTwo_iff {n : Nat} (hn : n < 2 ^ 64) : isPowerOfTwo n = true ↔ ∃ k, k < 64 ∧ n = 2 ^ k := by
  unfold isPowerOfTwo countOnes
  rw [beq_iff_eq, List.length_eq_one_iff]
  constructor
  · rintro ⟨k, hk⟩
    have hm : ∀ i, i < 64 → (n.testBit i = true ↔ i = k) := by
      intro i hi
      have : i ∈ (List.range 64).filter (fun i => n.testBit i) ↔ i ∈ [k] := by rw [hk]
      rw [List.mem_filter, List.mem_range, List.mem_singleton] at this
      exact ⟨fun h => this.1 ⟨hi, h⟩, fun h => (this.2 h).2⟩
    have hk64 : k < 64 := by
      have : k ∈ (List.range 64).filter (fun i => n.testBit i) := by rw [hk]; simp
      rw [List.mem_filter, List.mem_range] at this
      exact this.1
    refine ⟨k, hk64, ?_⟩
    apply Nat.eq_of_testBit_eq
    intro i
    rw [Nat.testBit_two_pow]
    by_cases hi : i < 64
    · rw [Bool.eq_iff_iff, hm i hi, decide_eq_true_eq, eq_comm]
    · rw [Nat.testBit_lt_two_pow (lt_of_lt_of_le hn (Nat.pow_le_pow_right (by norm_num) (not_lt.1 hi)))]
      symm; rw [decide_eq_false_iff_not]; omega
  · rintro ⟨k, hk, rfl⟩
    refine ⟨k, ?_⟩
    apply List.perm_singleton.1
    rw [List.perm_ext_iff_of_nodup (List.nodup_range.filter _) (by simp)]
    intro i
    rw [List.mem_filter, List.mem_range, List.mem_singleton, Nat.testBit_two_pow, decide_eq_true_eq]
    omega

theorem floorLog2_eq {n k : Nat} (h1 : 2 ^ k ≤ n) (h2 : n < 2 ^ (k + 1)) (hk : k < 64) : floorLog2 n = some k := by
  have hb : bitLen n = k + 1 := by
    have h0 : n ≠ 0 := by have := Nat.two_pow_pos k; omega
    unfold bitLen
    rw [if_neg h0, (Nat.log2_eq_iff h0).2 ⟨h1, h2⟩]
  have h0 : n ≠ 0 := by have := Nat.two_pow_pos k; omega
  have hz : leadingZeros 64 n = 63 - k := by unfold leadingZeros; omega
  simp only [floorLog2, assertC, subC, hz, bne_iff_ne, ne_eq, h0, not_false_eq_true, if_true, Option.bind_eq_bind, Option.bind_some]
  rw [if_pos (by omega)]
  congr 1; omega

theorem mullhi_eq {x y : Nat} (hx : x < 2 ^ 64) (hy : y < 2 ^ 64) : mullhi x y = some (x * y / 2 ^ 64) := by
  have hxy : x * y < 2 ^ 128 := by
    have : x * y ≤ (2 ^ 64 - 1) * (2 ^ 64 - 1) := Nat.mul_le_mul (by omega) (by omega)
    omega
  have : x * y / 2 ^ 64 < 2 ^ 64 := by omega
  simp only [mullhi, fits, shrC, hxy, if_true, Option.bind_eq_bind, Option.bind_some, Nat.shiftRight_eq_div_pow,
    show (64 : Nat) < 128 by norm_num, pure]
  rw [Nat.mod_eq_of_lt this]

/-- Multiplying by a slightly too large reciprocal and shifting is exact division. -/
theorem magic_div {d m e n s : Nat} (hd : 0 < d) (hm : m * d = 2 ^ s + e) (he : e * n < 2 ^ s) : m * n / 2 ^ s = n / d := by
  have hs := Nat.two_pow_pos s
  rw [Nat.div_eq_iff hs]
  have h1 : n / d * d ≤ n := Nat.div_mul_le_self n d
  have h2 : n + 1 ≤ (n / d + 1) * d := by have := Nat.lt_div_mul_add (a := n) hd; linarith
  generalize n / d = q at *
  generalize 2 ^ s = S at *
  constructor
  · have : q * S * d ≤ m * n * d := by
      calc q * S * d = (q * d) * S := by ring
        _ ≤ n * S := Nat.mul_le_mul_right _ h1
        _ ≤ n * (m * d) := Nat.mul_le_mul_left _ (by omega)
        _ = m * n * d := by ring
    exact Nat.le_of_mul_le_mul_right this hd
  · have : m * n * d < (q + 1) * S * d := by
      calc m * n * d = n * (m * d) := by ring
        _ = n * S + e * n := by rw [hm]; ring
        _ < n * S + S := by omega
        _ = (n + 1) * S := by ring
        _ ≤ (q + 1) * d * S := Nat.mul_le_mul_right _ h2
        _ = (q + 1) * S * d := by ring
    have := Nat.lt_of_mul_lt_mul_right this
    have e2 : (q + 1) * S = q * S + S := by ring
    omega

/-- Every `u64` that is not a power of two lies strictly between two consecutive powers of two. -/
theorem between_powers {d : Nat} (h0 : 0 < d) (hd : d < 2 ^ 64) : ∃ k, k < 64 ∧ 2 ^ k ≤ d ∧ d < 2 ^ (k + 1) := by
  refine ⟨Nat.log2 d, ?_, Nat.log2_self_le (by omega), Nat.lt_log2_self⟩
  exact (Nat.log2_lt (by omega)).2 hd

/-- What `divide_by` computes, case by case. -/
theorem divideBy_cases {d : Nat} (h0 : 0 < d) (hd : d < 2 ^ 64) :
    (∃ k, k < 64 ∧ d = 2 ^ k ∧ DividerU64.divideBy d = some (.BitShift k)) ∨
    (∃ k, k < 64 ∧ 2 ^ k < d ∧ d < 2 ^ (k + 1) ∧ d - 2 ^ (64 + k) % d < 2 ^ k ∧
      DividerU64.divideBy d = some (.Fast (2 ^ (64 + k) / d + 1) k) ∧ 2 ^ (64 + k) / d + 1 < 2 ^ 64) ∨
    (∃ k, k < 64 ∧ 2 ^ k < d ∧ d < 2 ^ (k + 1) ∧
      DividerU64.divideBy d = some (.General (2 ^ (65 + k) / d + 1 - 2 ^ 64) k) ∧
      2 ^ 64 ≤ 2 ^ (65 + k) / d + 1 ∧ 2 ^ (65 + k) / d + 1 < 2 ^ 65) := by
  obtain ⟨k, hk, hlo, hhi⟩ := between_powers h0 hd
  have hlog := floorLog2_eq hlo hhi hk
  have hd0 : d ≠ 0 := by omega
  rcases Nat.eq_or_lt_of_le hlo with heq | hlt
  · left
    refine ⟨k, hk, heq.symm, ?_⟩
    have hp : isPowerOfTwo d = true := (isPowerOfTwo_iff hd).2 ⟨k, hk, heq.symm⟩
    simp [DividerU64.divideBy, DividerU64.powerOf2Division, assertC, h0, hd0, hp, hlog]
  · right
    have hp : isPowerOfTwo d = false := by
      rw [Bool.eq_false_iff]
      intro h
      obtain ⟨j, _, hj⟩ := (isPowerOfTwo_iff hd).1 h
      rw [hj] at hlt hhi
      have a := (Nat.pow_lt_pow_iff_right (by norm_num : 1 < 2)).1 hlt
      have b := (Nat.pow_lt_pow_iff_right (by norm_num : 1 < 2)).1 hhi
      omega
    have hkk : 2 ^ k * 2 = 2 ^ (k + 1) := (pow_succ 2 k).symm
    have hk63 : 2 ^ k ≤ 2 ^ 63 := Nat.pow_le_pow_right (by norm_num) (by omega)
    have hU : (2 : Nat) ^ (64 + k) = 2 ^ 64 * 2 ^ k := pow_add 2 64 k
    have hU127 : (2 : Nat) ^ (64 + k) ≤ 2 ^ 127 := Nat.pow_le_pow_right (by norm_num) (by omega)
    have hquo : 2 ^ (64 + k) / d < 2 ^ 64 - 1 := by
      rw [Nat.div_lt_iff_lt_mul h0]
      have h1 : (2 ^ 64 - 1) * (2 ^ k + 1) ≤ (2 ^ 64 - 1) * d := Nat.mul_le_mul_left _ hlt
      have h2 : (2 ^ 64 - 1) * (2 ^ k + 1) = 2 ^ 64 * 2 ^ k + 2 ^ 64 - 1 - 2 ^ k := by omega
      omega
    have hdm := Nat.div_add_mod (2 ^ (64 + k)) d
    have hml := Nat.mod_lt (2 ^ (64 + k)) h0
    have hmpos : 0 < 2 ^ (64 + k) % d := by
      rw [Nat.pos_iff_ne_zero]
      intro h
      have hdvd : d ∣ 2 ^ (64 + k) := Nat.dvd_of_mod_eq_zero h
      obtain ⟨j, _, hj⟩ := (Nat.dvd_prime_pow Nat.prime_two).1 hdvd
      rw [hj] at hlt hhi
      have a := (Nat.pow_lt_pow_iff_right (by norm_num : 1 < 2)).1 hlt
      have b := (Nat.pow_lt_pow_iff_right (by norm_num : 1 < 2)).1 hhi
      omega
    have hshl : shlC 128 1 (k + 64) = some (2 ^ (64 + k)) := by
      unfold shlC
      rw [if_pos (by omega), Nat.one_shiftLeft, Nat.add_comm k 64, Nat.mod_eq_of_lt (by omega)]
    have hfit8 : fits 8 (k + 64) = some (k + 64) := by unfold fits; rw [if_pos (by omega)]
    have hfit128 : fits 128 (2 ^ (64 + k) / d * d) = some (2 ^ (64 + k) / d * d) := by
      unfold fits; rw [if_pos]; have := Nat.div_mul_le_self (2 ^ (64 + k)) d; omega
    have hsub : subC (2 ^ (64 + k)) (2 ^ (64 + k) / d * d) = some (2 ^ (64 + k) % d) := by
      unfold subC; rw [if_pos (Nat.div_mul_le_self _ _)]; congr 1
      rw [Nat.mul_comm] at hdm; omega
    have hmm : 2 ^ (64 + k) % d % 2 ^ 64 = 2 ^ (64 + k) % d := Nat.mod_eq_of_lt (by omega)
    have hsub2 : subC d (2 ^ (64 + k) % d) = some (d - 2 ^ (64 + k) % d) := by
      unfold subC; rw [if_pos hml.le]
    have hshl2 : shlC 64 1 k = some (2 ^ k) := by
      unfold shlC; rw [if_pos hk, Nat.one_shiftLeft, Nat.mod_eq_of_lt (by omega)]
    have hfast : DividerU64.fastPath d = some (if d - 2 ^ (64 + k) % d ≥ 2 ^ k then none
        else some (.Fast (2 ^ (64 + k) / d + 1) k)) := by
      have hfitm : fits 64 (2 ^ (64 + k) / d % 2 ^ 64 + 1) = some (2 ^ (64 + k) / d + 1) := by
        unfold fits
        rw [Nat.mod_eq_of_lt (by omega : 2 ^ (64 + k) / d < 2 ^ 64), if_pos (by omega)]
      simp only [DividerU64.fastPath, hp, Bool.false_eq_true, if_false, hlog, Option.bind_eq_bind, Option.bind_some, hfit8, hshl,
        divC, hd0, hfit128, hsub, hmm, assertC, hmpos, hml, gt_iff_lt, and_self, decide_true, if_true, hsub2, hshl2, hfitm, pure]
      split_ifs <;> rfl
    by_cases he : d - 2 ^ (64 + k) % d < 2 ^ k
    · left
      refine ⟨k, hk, hlt, hhi, he, ?_, by omega⟩
      simp only [DividerU64.divideBy, assertC, h0, decide_true, if_true, Option.bind_eq_bind, Option.bind_some,
        DividerU64.powerOf2Division, hd0, hp, Bool.false_eq_true, if_false, hfast, ge_iff_le, if_neg (not_le.2 he), pure]
    · right
      have hV : (2 : Nat) ^ (65 + k) = 2 * 2 ^ (64 + k) := by rw [show 65 + k = (64 + k) + 1 by omega, pow_succ]; omega
      have hq1 : 2 ^ 64 ≤ 2 ^ (65 + k) / d := by
        rw [Nat.le_div_iff_mul_le h0]
        have : 2 ^ 64 * d ≤ 2 ^ 64 * 2 ^ (k + 1) := Nat.mul_le_mul_left _ hhi.le
        omega
      have hq2 : 2 ^ (65 + k) / d + 1 < 2 ^ 65 := by
        have : 2 ^ (65 + k) / d < 2 ^ 65 - 1 := by
          rw [Nat.div_lt_iff_lt_mul h0]
          have h1 : (2 ^ 65 - 1) * (2 ^ k + 1) ≤ (2 ^ 65 - 1) * d := Nat.mul_le_mul_left _ hlt
          have h2 : (2 ^ 65 - 1) * (2 ^ k + 1) = 2 ^ 65 * 2 ^ k + 2 ^ 65 - 1 - 2 ^ k := by omega
          omega
        omega
      refine ⟨k, hk, hlt, hhi, ?_, by omega, hq2⟩
      have hbl : bitLen d = k + 1 := by
        unfold bitLen
        rw [if_neg hd0, (Nat.log2_eq_iff hd0).2 ⟨hlo, hhi⟩]
      have hz : leadingZeros 64 d = 63 - k := by unfold leadingZeros; omega
      have hs1 : subC 64 (leadingZeros 64 d) = some (k + 1) := by
        unfold subC; rw [hz, if_pos (by omega)]; congr 1; omega
      have hs2 : fits 8 (63 + (k + 1)) = some (k + 64) := by unfold fits; rw [if_pos (by omega)]; congr 1; omega
      have hs3 : subC (2 ^ (64 + k)) d = some (2 ^ (64 + k) - d) := by unfold subC; rw [if_pos (by omega)]
      have hs4 : fits 128 (2 ^ (64 + k) + (2 ^ (64 + k) - d)) = some (2 ^ (65 + k) - d) := by
        unfold fits; rw [if_pos (by omega)]; congr 1; omega
      have hs5 : (2 ^ (65 + k) - d) / d = 2 ^ (65 + k) / d - 1 := by
        have hle : d ≤ 2 ^ (65 + k) := by omega
        have := Nat.add_div_right (2 ^ (65 + k) - d) h0
        rw [Nat.sub_add_cancel hle] at this
        omega
      have hs6 : fits 128 (2 + (2 ^ (65 + k) - d) / d) = some (2 ^ (65 + k) / d + 1) := by
        unfold fits; rw [hs5, if_pos (by omega)]; congr 1; omega
      have hs7 : (2 ^ (65 + k) / d + 1) % 2 ^ 64 = 2 ^ (65 + k) / d + 1 - 2 ^ 64 := by omega
      have hs8 : subC (k + 1) 1 = some k := by unfold subC; rw [if_pos (by omega)]; rfl
      simp only [DividerU64.divideBy, assertC, h0, decide_true, if_true, Option.bind_eq_bind, Option.bind_some,
        DividerU64.powerOf2Division, hd0, hp, Bool.false_eq_true, if_false, hfast, ge_iff_le, if_pos (not_lt.1 he), pure,
        DividerU64.generalPath, hs1, hs2, hshl, hs3, hs4, divC, hs6, hs7, hs8]

theorem magic_div_pow {d n s t : Nat} (h0 : 0 < d) (hn : n < 2 ^ t) (he : d - 2 ^ (t + s) % d ≤ 2 ^ s) :
    (2 ^ (t + s) / d + 1) * n / 2 ^ (t + s) = n / d := by
  have hdm := Nat.div_add_mod (2 ^ (t + s)) d
  have hml := Nat.mod_lt (2 ^ (t + s)) h0
  refine magic_div (e := d - 2 ^ (t + s) % d) h0 ?_ ?_
  · rw [Nat.add_mul, one_mul, Nat.mul_comm]; omega
  · rw [Nat.mul_comm]
    exact lt_of_lt_of_eq (Nat.mul_lt_mul_of_lt_of_le hn he (Nat.two_pow_pos s)) (pow_add 2 t s).symm

theorem divide_fast {m n k : Nat} (hm : m < 2 ^ 64) (hn : n < 2 ^ 64) (hk : k < 64) :
    (DividerU64.Fast m k).divide n = some (m * n / 2 ^ (64 + k)) := by
  simp only [DividerU64.divide, mullhi_eq hm hn, shrC, hk, if_true, Option.bind_eq_bind, Option.bind_some]
  rw [Nat.shiftRight_eq_div_pow, Nat.div_div_eq_div_mul, pow_add]

theorem general_le (x n : Nat) (h : x < 2 ^ 64) : x * n / 2 ^ 64 ≤ n := by
  have h1 : x * n ≤ 2 ^ 64 * n := Nat.mul_le_mul_right _ h.le
  omega

theorem general_sum {M n : Nat} (hM1 : 2 ^ 64 ≤ M) : M * n / 2 ^ 64 = n + (M - 2 ^ 64) * n / 2 ^ 64 := by
  have : M * n = (M - 2 ^ 64) * n + 2 ^ 64 * n := by rw [← Nat.add_mul, Nat.sub_add_cancel hM1]
  omega

theorem general_shift (x k : Nat) : x / 2 ^ 64 / 2 / 2 ^ k = x / 2 ^ (65 + k) := by
  rw [Nat.div_div_eq_div_mul, Nat.div_div_eq_div_mul, show 65 + k = 64 + 1 + k by omega, pow_add, pow_add, pow_one,
    Nat.mul_assoc]

theorem general_half {n q : Nat} (hn : n < 2 ^ 64) (hq : q ≤ n) : ((n - q) / 2 ^ 1 + q) % 2 ^ 64 = (n + q) / 2 := by
  omega

theorem divide_general' {ml n q k : Nat} (hmul : mullhi ml n = some q) (hn : n < 2 ^ 64) (hq : q ≤ n) (hk : k < 64) :
    (DividerU64.General ml k).divide n = some ((n + q) / 2 / 2 ^ k) := by
  have hsub : subC n q = some (n - q) := by unfold subC; rw [if_pos hq]
  have hsh : ∀ x, shrC 64 x 1 = some (x / 2 ^ 1) := by
    intro x; unfold shrC; rw [if_pos (by norm_num), Nat.shiftRight_eq_div_pow]
  have hsh2 : ∀ x, shrC 64 x k = some (x / 2 ^ k) := by
    intro x; unfold shrC; rw [if_pos hk, Nat.shiftRight_eq_div_pow]
  rw [DividerU64.divide, hmul, Option.bind_eq_bind, Option.bind_some, hsub, Option.bind_some, hsh, Option.bind_some]
  show shrC 64 (((n - q) / 2 ^ 1 + q) % 2 ^ 64) k = _
  rw [hsh2, general_half hn hq]

theorem divide_general {M n k : Nat} (hM1 : 2 ^ 64 ≤ M) (hM2 : M < 2 ^ 65) (hn : n < 2 ^ 64) (hk : k < 64) :
    (DividerU64.General (M - 2 ^ 64) k).divide n = some (M * n / 2 ^ (65 + k)) := by
  have hl : M - 2 ^ 64 < 2 ^ 64 := by omega
  rw [divide_general' (mullhi_eq hl hn) hn (general_le _ _ hl) hk, ← general_sum hM1, general_shift]

/-- For every 64-bit divisor `d ≠ 0` and every 64-bit `n`, building the divider and dividing yields exactly `n / d`, without any
arithmetic panic or failed assertion. -/
theorem C25_divide_exact {d n : Nat} (h0 : 0 < d) (hd : d < 2 ^ 64) (hn : n < 2 ^ 64) :
    (DividerU64.divideBy d).bind (fun div => div.divide n) = some (n / d) := by
  rcases divideBy_cases h0 hd with ⟨k, hk, rfl, h⟩ | ⟨k, hk, hlo, hhi, he, h, hm⟩ | ⟨k, hk, hlo, hhi, h, hm1, hm2⟩
  · rw [h]
    simp [DividerU64.divide, shrC, hk, Nat.shiftRight_eq_div_pow]
  · rw [h, Option.bind_some, divide_fast hm hn hk, magic_div_pow h0 hn he.le]
  · rw [h, Option.bind_some, divide_general hm1 hm2 hn hk]
    have h65 : 65 + k = 64 + (k + 1) := by omega
    rw [h65, magic_div_pow h0 hn ?_]
    omega

/-- What "no failed assertion" means in `C25_divide_exact`: an assertion stops the program exactly if its condition is false. -/
theorem C25_assertion (c : Bool) : (assertC c = none ↔ c = false) ∧ (assertC c = some () ↔ c = true) := by
  cases c <;> decide

/-- Dividing by zero is refused (the assertion fails). -/
theorem C25_zero_refused : DividerU64.divideBy 0 = none := by decide

/-- Each of the three kinds of divider occurs: 4, 11 and 7, and the largest `u64` is divided exactly. -/
example : DividerU64.divideBy 4 = some (.BitShift 2) ∧
    DividerU64.divideBy 11 = some (.Fast 13415813871788764812 3) ∧
    DividerU64.divideBy 7 = some (.General 2635249153387078803 2) := by decide +kernel
example : (DividerU64.divideBy 7).bind (fun div => div.divide (2 ^ 64 - 1)) = some ((2 ^ 64 - 1) / 7) :=
  C25_divide_exact (by norm_num) (by norm_num) (by norm_num)

end Pokers
