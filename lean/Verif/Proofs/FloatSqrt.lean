import Mathlib.Tactic.Linarith
import Mathlib.Tactic.Positivity
import Mathlib.Tactic.FieldSimp
import Mathlib.Tactic.NormNum
import Mathlib.Tactic.Ring
import Mathlib.Analysis.Real.Sqrt
import Verif.Model.FloatSqrt
import Verif.Proofs.Rounding
/-! The square root of `f64` numbers. -/
namespace Pokers

theorem sqrtUlp_pos (v : ℚ) : 0 < sqrtUlp v := by unfold sqrtUlp; positivity

/-- The integer part of the square root. -/
theorem nat_sqrt_floor {x : ℚ} (h : 0 ≤ x) : ((Nat.sqrt ⌊x⌋₊ : Nat) : ℚ) ^ 2 ≤ x ∧ x < ((Nat.sqrt ⌊x⌋₊ : Nat) + 1 : ℚ) ^ 2 := by
  have h1 := Nat.sqrt_le' ⌊x⌋₊
  have h2 := Nat.lt_succ_sqrt' ⌊x⌋₊
  have h3 := Nat.floor_le h
  have h4 := Nat.lt_floor_add_one x
  generalize Nat.sqrt ⌊x⌋₊ = m at h1 h2 ⊢
  constructor
  · have : ((m : ℚ)) ^ 2 ≤ (⌊x⌋₊ : ℚ) := by exact_mod_cast h1
    linarith
  · have : ((⌊x⌋₊ : ℚ)) + 1 ≤ ((m : ℚ) + 1) ^ 2 := by
      have : ⌊x⌋₊ + 1 ≤ (m + 1) ^ 2 := h2
      exact_mod_cast this
    linarith

/-- What `sqrtRound` is: `m` below the middle, `m + 1` above. -/
theorem sqrtRound_cases {v : ℚ} (h : 0 ≤ v) :
    (v / sqrtUlp v ^ 2 ≤ ((sqrtRound v : ℚ) + 1 / 2) ^ 2 ∧ (sqrtRound v : ℚ) ^ 2 ≤ v / sqrtUlp v ^ 2) ∨
    (∃ m : Nat, sqrtRound v = m + 1 ∧ ((m : ℚ) + 1 / 2) ^ 2 ≤ v / sqrtUlp v ^ 2 ∧ v / sqrtUlp v ^ 2 < ((m : ℚ) + 1) ^ 2) := by
  have hx : 0 ≤ v / sqrtUlp v ^ 2 := div_nonneg h (by positivity)
  obtain ⟨h1, h2⟩ := nat_sqrt_floor hx
  unfold sqrtRound
  simp only
  split
  · rename_i h3
    exact Or.inl ⟨h3.le, h1⟩
  · rename_i h3
    split
    · rename_i h4
      exact Or.inr ⟨_, rfl, h4.le, h2⟩
    · rename_i h4
      split
      · exact Or.inl ⟨not_lt.1 h4, h1⟩
      · exact Or.inr ⟨_, rfl, not_lt.1 h3, h2⟩

theorem sqrtRound_bounds {v : ℚ} (h : 0 ≤ v) :
    v / sqrtUlp v ^ 2 ≤ ((sqrtRound v : ℚ) + 1 / 2) ^ 2 ∧ ((sqrtRound v : ℚ) = 0 ∨ ((sqrtRound v : ℚ) - 1 / 2) ^ 2 ≤ v / sqrtUlp v ^ 2) := by
  rcases sqrtRound_cases h with ⟨h1, h2⟩ | ⟨m, h1, h2, h3⟩
  · refine ⟨h1, ?_⟩
    rcases Nat.eq_zero_or_pos (sqrtRound v) with h0 | h0
    · left; rw [h0]; simp
    · right
      have : (1 : ℚ) ≤ sqrtRound v := by exact_mod_cast h0
      nlinarith
  · rw [h1]
    push_cast
    have : (0 : ℚ) ≤ m := Nat.cast_nonneg m
    refine ⟨by nlinarith, Or.inr ?_⟩
    have e : ((m : ℚ) + 1 - 1 / 2) = m + 1 / 2 := by ring
    rw [e]
    exact h2

/-- The distance is small compared with the root: the number of distances has 53 bits. -/
theorem sqrt_scaled' {v : ℚ} (hv : 0 < v) (hE : max (Int.log 2 v / 2 - 52) (-1074) = Int.log 2 v / 2 - 52) :
    2 ^ 104 ≤ v / sqrtUlp v ^ 2 := by
  have hle := Int.zpow_log_le_self (b := 2) (by norm_num) hv
  push_cast at hle
  unfold sqrtUlp
  rw [hE, le_div_iff₀ (by positivity), ← zpow_natCast, ← zpow_natCast, ← zpow_mul, ← zpow_add₀ (by norm_num)]
  refine le_trans (zpow_le_zpow_right₀ (by norm_num) ?_) hle
  push_cast
  omega

theorem sqrt_scaled {v : ℚ} (h : 2 ^ (-1022 : ℤ) ≤ v) : 2 ^ 104 ≤ v / sqrtUlp v ^ 2 := by
  have hv : 0 < v := lt_of_lt_of_le (by positivity) h
  have hlog : -1022 ≤ Int.log 2 v := by
    rw [← Int.zpow_le_iff_le_log (by norm_num) hv]
    exact_mod_cast h
  exact sqrt_scaled' hv (max_eq_left (by omega))

theorem sqrt_scaled_lt (v : ℚ) : v / sqrtUlp v ^ 2 < 2 ^ 106 := by
  have hlt := Int.lt_zpow_succ_log_self (b := 2) (by norm_num) v
  push_cast at hlt
  have hE := le_max_left (Int.log 2 v / 2 - 52) (-1074)
  unfold sqrtUlp
  generalize max (Int.log 2 v / 2 - 52) (-1074) = E at hE
  rw [div_lt_iff₀ (by positivity), ← zpow_natCast, ← zpow_natCast, ← zpow_mul, ← zpow_add₀ (by norm_num)]
  refine lt_of_lt_of_le hlt (zpow_le_zpow_right₀ (by norm_num) ?_)
  push_cast
  omega

theorem sqrtRound_ge {v : ℚ} (h : 2 ^ (-1022 : ℤ) ≤ v) : (2 : ℚ) ^ 52 ≤ sqrtRound v := by
  have hs := sqrt_scaled h
  have hv : 0 < v := lt_of_lt_of_le (by positivity) h
  have key : 2 ^ 104 < (((sqrtRound v : Nat) + 1 : ℚ)) ^ 2 := by
    rcases sqrtRound_cases hv.le with ⟨h1, _⟩ | ⟨m, h1, h2, h3⟩
    · have : (0 : ℚ) ≤ sqrtRound v := Nat.cast_nonneg _
      nlinarith
    · rw [h1]
      push_cast
      have : (0 : ℚ) ≤ m := Nat.cast_nonneg _
      nlinarith
  have h1 : (2 : ℚ) ^ 52 < (sqrtRound v : ℚ) + 1 := lt_of_pow_lt_pow_left₀ 2 (by positivity) (by norm_num at key ⊢; linarith)
  have h2 : 2 ^ 52 < sqrtRound v + 1 := by exact_mod_cast h1
  have h3 : 2 ^ 52 ≤ sqrtRound v := by omega
  exact_mod_cast h3

theorem sqrtRound_le {v : ℚ} (h : 0 < v) : sqrtRound v ≤ 2 ^ 53 := by
  have hs := sqrt_scaled_lt v
  rcases sqrtRound_cases h.le with ⟨_, h2⟩ | ⟨m, h1, h2, h3⟩
  · have h1 : (sqrtRound v : ℚ) < 2 ^ 53 := lt_of_pow_lt_pow_left₀ 2 (by positivity) (by norm_num at hs ⊢; linarith)
    have h2 : sqrtRound v < 2 ^ 53 := by exact_mod_cast h1
    omega
  · have h4 : (m : ℚ) < 2 ^ 53 := by
      refine lt_of_pow_lt_pow_left₀ 2 (by positivity) ?_
      have : (0 : ℚ) ≤ m := Nat.cast_nonneg _
      norm_num at hs ⊢
      nlinarith
    have h5 : m < 2 ^ 53 := by exact_mod_cast h4
    omega

/-- The square root is correct up to a relative error of `2 ^ -53`. -/
theorem fsqrt_rel {v : ℚ} (h : 2 ^ (-1022 : ℤ) ≤ v) : ∃ d, fsqrt v = some d ∧ 0 < d ∧
    d ^ 2 * (1 - 1 / 2 ^ 53) ^ 2 ≤ v ∧ v ≤ d ^ 2 * (1 + 1 / 2 ^ 53) ^ 2 := by
  have hv : 0 < v := lt_of_lt_of_le (by positivity) h
  have hg := sqrtUlp_pos v
  have hR := sqrtRound_ge h
  obtain ⟨h1, h2⟩ := sqrtRound_bounds hv.le
  refine ⟨sqrtRound v * sqrtUlp v, by unfold fsqrt; rw [if_neg (not_lt.2 hv.le)], ?_, ?_, ?_⟩
  all_goals generalize (sqrtRound v : ℚ) = R at *
  · have : (0 : ℚ) < R := by norm_num at hR; linarith
    positivity
  · have h2 := h2.resolve_left (by norm_num at hR; intro h0; linarith)
    rw [le_div_iff₀ (by positivity)] at h2
    refine le_trans ?_ h2
    rw [mul_pow]
    have : (R * (1 - 1 / 2 ^ 53)) ^ 2 ≤ (R - 1 / 2) ^ 2 := by
      apply pow_le_pow_left₀
      · apply mul_nonneg (by norm_num at hR; linarith); norm_num
      · norm_num at hR ⊢; linarith
    calc R ^ 2 * sqrtUlp v ^ 2 * (1 - 1 / 2 ^ 53) ^ 2
        = (R * (1 - 1 / 2 ^ 53)) ^ 2 * sqrtUlp v ^ 2 := by ring
      _ ≤ _ := mul_le_mul_of_nonneg_right this (by positivity)
  · rw [div_le_iff₀ (by positivity)] at h1
    refine h1.trans ?_
    have : (R + 1 / 2) ^ 2 ≤ (R * (1 + 1 / 2 ^ 53)) ^ 2 := by
      apply pow_le_pow_left₀
      · norm_num at hR; linarith
      · norm_num at hR ⊢; linarith
    calc _ ≤ (R * (1 + 1 / 2 ^ 53)) ^ 2 * sqrtUlp v ^ 2 := mul_le_mul_of_nonneg_right this (by positivity)
      _ = _ := by ring

theorem fsqrt_isF64 {v d : ℚ} (h : fsqrt v = some d) : IsF64 d := by
  unfold fsqrt at h
  split at h
  · cases h
  · rename_i hv
    injection h with h
    rcases (not_lt.1 hv).eq_or_lt with h0 | h0
    · refine ⟨0, 0, by norm_num, by norm_num, ?_⟩
      rw [← h, ← h0]
      have : sqrtRound 0 = 0 := by decide +kernel
      rw [this]; simp
    · refine ⟨sqrtRound v, max (Int.log 2 v / 2 - 52) (-1074), ?_, le_max_right _ _, ?_⟩
      · rw [abs_of_nonneg (by positivity)]
        exact_mod_cast sqrtRound_le h0
      · rw [← h]; rfl

/-- An `f64` number above `2 ^ (e + 52)`, or any if `e = -1074`, is a multiple of `2 ^ e`. -/
theorem isF64_multiple {y : ℚ} (hy : IsF64 y) {e : ℤ} (h : e ≤ -1074 ∨ (2 : ℚ) ^ (e + 52) ≤ y) : ∃ k : ℤ, y = k * 2 ^ e := by
  obtain ⟨m, f, hm, hf, rfl⟩ := hy
  by_cases hef : e ≤ f
  · refine ⟨m * 2 ^ (f - e).toNat, ?_⟩
    push_cast
    rw [← zpow_natCast, Int.toNat_of_nonneg (by omega), mul_assoc, ← zpow_add₀ (by norm_num)]
    congr 2
    omega
  · rcases h with h | h
    · omega
    · -- then `|m| * 2 ^ f ≤ 2 ^ (53 + f)`, so `f = e - 1` and `m = 2 ^ 53`
      have hm' : (m : ℚ) ≤ 2 ^ 53 := by
        have : m ≤ 2 ^ 53 := (le_abs_self m).trans hm
        exact_mod_cast this
      have h1 : (2 : ℚ) ^ (e + 52) ≤ 2 ^ (f + 53) := by
        refine h.trans ?_
        rw [zpow_add₀ (by norm_num), mul_comm ((2 : ℚ) ^ f)]
        exact mul_le_mul_of_nonneg_right (by norm_num at hm' ⊢; exact hm') (by positivity)
      have h2 : e + 52 ≤ f + 53 := (zpow_le_zpow_iff_right₀ (by norm_num : (1 : ℚ) < 2)).1 h1
      have hfe : e = f + 1 := by omega
      subst hfe
      have h3 : (2 : ℚ) ^ 53 ≤ m := by
        rw [show f + 1 + 52 = f + 53 by ring, zpow_add₀ (by norm_num), mul_comm ((2 : ℚ) ^ f)] at h
        have := le_of_mul_le_mul_right h (by positivity)
        norm_num at this ⊢
        exact this
      have h4 : m = 2 ^ 53 := by
        have : (2 ^ 53 : ℤ) ≤ m := by exact_mod_cast h3
        have : m ≤ 2 ^ 53 := (le_abs_self m).trans hm
        omega
      refine ⟨2 ^ 52, ?_⟩
      rw [h4, zpow_add₀ (by norm_num)]
      push_cast
      ring

/-- Between the multiples of the distance around the square root there is no `f64` number. -/
theorem sqrt_gap {v : ℚ} (hv : 0 < v) {m : Nat} (hm : v / sqrtUlp v ^ 2 < ((m : ℚ) + 1) ^ 2) {y : ℚ} (hy : IsF64 y)
    (h : m * sqrtUlp v < y) : ((m : ℚ) + 1) * sqrtUlp v ≤ y := by
  have hg := sqrtUlp_pos v
  obtain ⟨k, hk⟩ : ∃ k : ℤ, y = k * sqrtUlp v := by
    apply isF64_multiple hy
    rcases max_choice (Int.log 2 v / 2 - 52) (-1074) with hE | hE
    · right
      have hs := sqrt_scaled' hv hE
      have h1 : (2 : ℚ) ^ 52 < (m : ℚ) + 1 := by
        refine lt_of_pow_lt_pow_left₀ 2 (by positivity) (lt_of_le_of_lt ?_ hm)
        norm_num at hs ⊢; exact hs
      have h2 : 2 ^ 52 ≤ m := by
        have : 2 ^ 52 < m + 1 := by exact_mod_cast h1
        omega
      have h3 : (2 : ℚ) ^ 52 ≤ m := by exact_mod_cast h2
      refine le_trans ?_ h.le
      rw [zpow_add₀ (by norm_num), mul_comm]
      exact mul_le_mul_of_nonneg_right h3 hg.le
    · left; rw [hE]
  rw [hk] at h ⊢
  have h1 : (m : ℚ) < k := lt_of_mul_lt_mul_right h hg.le
  have h2 : (m : ℤ) < k := by exact_mod_cast h1
  have h3 : ((m : ℤ) + 1 : ℤ) ≤ k := h2
  refine mul_le_mul_of_nonneg_right ?_ hg.le
  exact_mod_cast h3

/-- The result of `f64::sqrt` is the `f64` number nearest to the square root. -/
theorem fsqrt_nearest {v d : ℚ} (h : fsqrt v = some d) {y : ℚ} (hy : IsF64 y) :
    |(d : ℝ) - √(v : ℝ)| ≤ |(y : ℝ) - √(v : ℝ)| := by
  unfold fsqrt at h
  split at h
  · cases h
  rename_i hv
  injection h with h
  subst h
  rcases (not_lt.1 hv).eq_or_lt with h0 | h0
  · rw [← h0]
    have : sqrtRound 0 = 0 := by decide +kernel
    rw [this]; simp
  have hg := sqrtUlp_pos v
  have hgR : (0 : ℝ) < (sqrtUlp v : ℝ) := by exact_mod_cast hg
  -- bounds of the root from bounds of the scaled number
  have up : ∀ {a : ℚ}, 0 ≤ a → v / sqrtUlp v ^ 2 ≤ a ^ 2 → √(v : ℝ) ≤ a * sqrtUlp v := by
    intro a ha hle
    rw [div_le_iff₀ (by positivity), ← mul_pow] at hle
    apply Real.sqrt_le_iff.2
    exact ⟨mul_nonneg (by exact_mod_cast ha) hgR.le, by exact_mod_cast hle⟩
  have down : ∀ {a : ℚ}, a ^ 2 ≤ v / sqrtUlp v ^ 2 → (a * sqrtUlp v : ℝ) ≤ √(v : ℝ) := by
    intro a hle
    rw [le_div_iff₀ (by positivity), ← mul_pow] at hle
    apply Real.le_sqrt_of_sq_le
    exact_mod_cast hle
  rcases sqrtRound_cases h0.le with ⟨h1, h2⟩ | ⟨m, h1, h2, h3⟩
  · generalize hR : sqrtRound v = R at h1 h2 ⊢
    have a1 := up (by positivity) h1
    have a2 := down h2
    push_cast at a1 a2 ⊢
    have e1 : |(R : ℝ) * sqrtUlp v - √(v : ℝ)| = √(v : ℝ) - R * sqrtUlp v := by rw [abs_of_nonpos (by linarith)]; ring
    rw [e1]
    by_cases hle : y ≤ R * sqrtUlp v
    · have : (y : ℝ) ≤ R * sqrtUlp v := by exact_mod_cast hle
      rw [abs_of_nonpos (by linarith)]
      linarith
    · have h4 := sqrt_gap h0 (m := R) (lt_of_le_of_lt h1 (by
        have : (0 : ℚ) ≤ R := Nat.cast_nonneg R
        nlinarith)) hy (not_le.1 hle)
      have : (((R : ℝ) + 1) * sqrtUlp v : ℝ) ≤ y := by exact_mod_cast h4
      refine le_trans ?_ (le_abs_self _)
      nlinarith
  · rw [h1]
    have a1 := up (by positivity) h3.le
    have a2 := down h2
    push_cast at a1 a2 ⊢
    have e1 : |((m : ℝ) + 1) * sqrtUlp v - √(v : ℝ)| = (m + 1) * sqrtUlp v - √(v : ℝ) := abs_of_nonneg (by linarith)
    rw [e1]
    by_cases hle : y ≤ m * sqrtUlp v
    · have : (y : ℝ) ≤ m * sqrtUlp v := by exact_mod_cast hle
      rw [abs_sub_comm]
      refine le_trans ?_ (le_abs_self _)
      nlinarith
    · have h4 := sqrt_gap h0 h3 hy (not_le.1 hle)
      have : (((m : ℝ) + 1) * sqrtUlp v : ℝ) ≤ y := by exact_mod_cast h4
      refine le_trans ?_ (le_abs_self _)
      linarith

end Pokers
