import Mathlib.Tactic.Linarith
import Mathlib.Tactic.Positivity
import Mathlib.Tactic.FieldSimp
import Mathlib.Tactic.NormNum
import Mathlib.Tactic.Ring
import Mathlib.Algebra.Order.Field.Power
import Verif.Model.Float
/-! Rounding to the nearest `f64`. -/
namespace Pokers

theorem roundEven_cases (x : ℚ) : (roundEven x = ⌊x⌋ ∧ x - ⌊x⌋ ≤ 1 / 2) ∨ (roundEven x = ⌊x⌋ + 1 ∧ 1 / 2 ≤ x - ⌊x⌋) := by
  unfold roundEven
  simp only
  split
  · exact Or.inl ⟨rfl, by linarith⟩
  · split
    · exact Or.inr ⟨rfl, by linarith⟩
    · split
      · exact Or.inl ⟨rfl, by linarith⟩
      · exact Or.inr ⟨rfl, by linarith⟩

theorem roundEven_err (x : ℚ) : |(roundEven x : ℚ) - x| ≤ 1 / 2 := by
  have h1 := Int.floor_le x
  have h2 := Int.lt_floor_add_one x
  rw [abs_le]
  rcases roundEven_cases x with ⟨h, h'⟩ | ⟨h, h'⟩ <;> rw [h] <;> push_cast <;> constructor <;> linarith

theorem roundEven_int (n : ℤ) : roundEven (n : ℚ) = n := by
  rcases roundEven_cases (n : ℚ) with ⟨h, h'⟩ | ⟨h, h'⟩
  · rw [h, Int.floor_intCast]
  · rw [Int.floor_intCast] at h'
    norm_num at h'

theorem roundEven_mono {x y : ℚ} (h : x ≤ y) : roundEven x ≤ roundEven y := by
  have hf := Int.floor_mono h
  rcases hf.lt_or_eq with hlt | heq
  · have h1 : roundEven x ≤ ⌊x⌋ + 1 := by rcases roundEven_cases x with ⟨h, _⟩ | ⟨h, _⟩ <;> omega
    have h2 : ⌊y⌋ ≤ roundEven y := by rcases roundEven_cases y with ⟨h, _⟩ | ⟨h, _⟩ <;> omega
    omega
  · unfold roundEven
    simp only [heq]
    have : x - (⌊y⌋ : ℚ) ≤ y - (⌊y⌋ : ℚ) := by linarith
    split_ifs <;> first | omega | (exfalso; linarith)

theorem ulp_pos (x : ℚ) : 0 < ulp x := by unfold ulp; positivity

theorem fl_err (x : ℚ) : |fl x - x| ≤ ulp x / 2 := by
  have h := roundEven_err (x / ulp x)
  have hp := ulp_pos x
  have : fl x - x = ((roundEven (x / ulp x) : ℚ) - x / ulp x) * ulp x := by
    unfold fl
    field_simp
  rw [this, abs_mul, abs_of_pos hp]
  nlinarith

/-- The exponent of the grid around `x`. -/
def gridExp (x : ℚ) : ℤ := max (Int.log 2 |x| - 52) (-1074)

theorem ulp_eq (x : ℚ) : ulp x = 2 ^ gridExp x := rfl

/-- `x` is an `f64` number (of any size). -/
def IsF64 (x : ℚ) : Prop := ∃ m e : ℤ, |m| ≤ 2 ^ 53 ∧ -1074 ≤ e ∧ x = m * 2 ^ e

theorem abs_lt_grid (x : ℚ) : |x| < 2 ^ (gridExp x + 53) := by
  refine (Int.lt_zpow_succ_log_self (b := 2) (by norm_num) |x|).trans_le ?_
  push_cast
  apply zpow_le_zpow_right₀ (by norm_num)
  have := le_max_left (Int.log 2 |x| - 52) (-1074)
  unfold gridExp
  omega

theorem fl_isF64 (x : ℚ) : IsF64 (fl x) := by
  refine ⟨roundEven (x / ulp x), gridExp x, ?_, le_max_right _ _, rfl⟩
  have h := abs_lt_grid x
  have hp := ulp_pos x
  have h1 : |x / ulp x| ≤ (2 ^ 53 : ℤ) := by
    rw [abs_div, abs_of_pos hp, div_le_iff₀ hp, ulp_eq]
    push_cast
    rw [zpow_add₀ (by norm_num), mul_comm] at h
    exact h.le
  rw [abs_le] at h1 ⊢
  constructor
  · have := roundEven_mono h1.1
    rwa [← Int.cast_neg, roundEven_int] at this
  · have := roundEven_mono h1.2
    rwa [roundEven_int] at this

theorem fl_of_grid {x : ℚ} {m e : ℤ} (h : x = m * 2 ^ e) (he : gridExp x ≤ e) : fl x = x := by
  have hp := ulp_pos x
  have : x / ulp x = ((m * 2 ^ (e - gridExp x).toNat : ℤ) : ℚ) := by
    rw [div_eq_iff hp.ne', ulp_eq, h]
    push_cast
    rw [mul_assoc, ← zpow_natCast, Int.toNat_of_nonneg (by rw [← h]; omega), ← zpow_add₀ (by norm_num)]
    congr 2
    rw [← h]
    omega
  unfold fl
  rw [this, roundEven_int, ← this]
  field_simp

theorem fl_of_isF64 {x : ℚ} (h : IsF64 x) : fl x = x := by
  obtain ⟨m, e, hm, he, rfl⟩ := h
  rcases eq_or_ne m 0 with rfl | h0
  · simp [fl, roundEven]
  have hpos : 0 < |(m : ℚ) * 2 ^ e| := by positivity
  rcases hm.lt_or_eq with hm | hm
  · refine fl_of_grid rfl (max_le ?_ he)
    have : Int.log 2 |(m : ℚ) * 2 ^ e| < e + 53 := by
      rw [← Int.lt_zpow_iff_log_lt (by norm_num) hpos, abs_mul, abs_of_pos (a := (2 : ℚ) ^ e) (by positivity)]
      push_cast
      rw [zpow_add₀ (by norm_num), mul_comm ((2 : ℚ) ^ e)]
      have : |(m : ℚ)| < 2 ^ 53 := by exact_mod_cast hm
      exact mul_lt_mul_of_pos_right this (by positivity)
    omega
  · obtain ⟨c, hc⟩ : ∃ c : ℤ, m = c * 2 := by
      rcases abs_choice m with h | h <;> rw [h] at hm
      · exact ⟨2 ^ 52, by omega⟩
      · exact ⟨-2 ^ 52, by omega⟩
    have hx : (m : ℚ) * 2 ^ e = c * 2 ^ (e + 1) := by
      rw [zpow_add_one₀ (by norm_num), hc]
      push_cast
      ring
    refine fl_of_grid hx (max_le ?_ (by omega))
    have : Int.log 2 |(m : ℚ) * 2 ^ e| < e + 54 := by
      rw [← Int.lt_zpow_iff_log_lt (by norm_num) hpos, abs_mul, abs_of_pos (a := (2 : ℚ) ^ e) (by positivity)]
      push_cast
      rw [zpow_add₀ (by norm_num), mul_comm ((2 : ℚ) ^ e)]
      have : |(m : ℚ)| < 2 ^ 54 := by
        have : |m| < 2 ^ 54 := by omega
        exact_mod_cast this
      exact mul_lt_mul_of_pos_right this (by positivity)
    omega

theorem fl_fl (x : ℚ) : fl (fl x) = fl x := fl_of_isF64 (fl_isF64 x)

theorem fl_nat {n : Nat} (h : n ≤ 2 ^ 53) : fl n = n :=
  fl_of_isF64 ⟨n, 0, by rw [abs_of_nonneg (by omega)]; exact_mod_cast h, by norm_num, by simp⟩

theorem fl_zero : fl 0 = 0 := by
  have := fl_nat (n := 0) (by norm_num)
  simpa using this

theorem fl_half {n : Nat} (h : n ≤ 2 ^ 53) : fl ((n : ℚ) / 2) = (n : ℚ) / 2 :=
  fl_of_isF64 ⟨n, -1, by rw [abs_of_nonneg (by omega)]; exact_mod_cast h, by norm_num, by norm_num; ring⟩

theorem fl_nonneg {x : ℚ} (h : 0 ≤ x) : 0 ≤ fl x := by
  have hp := ulp_pos x
  have := roundEven_mono (div_nonneg h hp.le)
  have h0 : roundEven 0 = 0 := by exact_mod_cast roundEven_int 0
  rw [h0] at this
  have : (0 : ℚ) ≤ roundEven (x / ulp x) := by exact_mod_cast this
  exact mul_nonneg this hp.le

theorem fl_mono {x y : ℚ} (h0 : 0 ≤ x) (h : x ≤ y) : fl x ≤ fl y := by
  rcases h0.eq_or_lt with rfl | hx
  · rw [fl_zero]; exact fl_nonneg h
  have hy := hx.trans_le h
  have hlog := Int.log_mono_right (b := 2) hx h
  have hE : gridExp x ≤ gridExp y := by
    unfold gridExp
    rw [abs_of_pos hx, abs_of_pos hy]
    exact max_le_max (by omega) le_rfl
  rcases hE.eq_or_lt with hE | hE
  · have hu : ulp x = ulp y := by rw [ulp_eq, ulp_eq, hE]
    unfold fl
    rw [hu]
    have := roundEven_mono (div_le_div_of_nonneg_right h (ulp_pos y).le)
    exact mul_le_mul_of_nonneg_right (by exact_mod_cast this) (ulp_pos y).le
  · have hEy : gridExp y = Int.log 2 y - 52 := by
      unfold gridExp at hE ⊢
      rw [abs_of_pos hy] at hE ⊢
      rcases max_choice (Int.log 2 y - 52) (-1074) with h | h
      · exact h
      · rw [h] at hE
        have := le_max_right (Int.log 2 |x| - 52) (-1074)
        omega
    have h1 : fl x ≤ 2 ^ (gridExp x + 53) := by
      have ha := abs_lt_grid x
      rw [abs_of_pos hx] at ha
      have : x / ulp x ≤ ((2 ^ 53 : ℤ) : ℚ) := by
        rw [div_le_iff₀ (ulp_pos x), ulp_eq]
        push_cast
        rw [zpow_add₀ (by norm_num), mul_comm] at ha
        exact ha.le
      have := roundEven_mono this
      rw [roundEven_int] at this
      unfold fl
      rw [ulp_eq] at this ⊢
      rw [zpow_add₀ (by norm_num), mul_comm ((2 : ℚ) ^ gridExp x)]
      exact mul_le_mul_of_nonneg_right (by exact_mod_cast this) (by positivity)
    have h2 : (2 : ℚ) ^ (gridExp y + 52) ≤ fl y := by
      have ha := Int.zpow_log_le_self (b := 2) (by norm_num) hy
      have : ((2 ^ 52 : ℤ) : ℚ) ≤ y / ulp y := by
        rw [le_div_iff₀ (ulp_pos y), ulp_eq, hEy]
        push_cast
        rw [show (4503599627370496 : ℚ) = 2 ^ (52 : ℤ) by norm_num, ← zpow_add₀ (by norm_num)]
        push_cast at ha
        rwa [add_sub_cancel]
      have := roundEven_mono this
      rw [roundEven_int] at this
      unfold fl
      rw [ulp_eq] at this ⊢
      rw [zpow_add₀ (by norm_num), mul_comm ((2 : ℚ) ^ gridExp y)]
      exact mul_le_mul_of_nonneg_right (by exact_mod_cast this) (by positivity)
    refine h1.trans (le_trans ?_ h2)
    apply zpow_le_zpow_right₀ (by norm_num)
    omega

/-- The relative error of a normal number is at most `2 ^ -53`. -/
theorem fl_rel {x : ℚ} (h : 2 ^ (-1022 : ℤ) ≤ x) : |fl x - x| ≤ x / 2 ^ 53 := by
  have hx : 0 < x := lt_of_lt_of_le (by positivity) h
  have hlog : -1022 ≤ Int.log 2 x := by
    rw [← Int.zpow_le_iff_le_log (by norm_num) hx]
    exact_mod_cast h
  have hE : gridExp x = Int.log 2 x - 52 := by
    unfold gridExp
    rw [abs_of_pos hx]
    exact max_eq_left (by omega)
  refine (fl_err x).trans ?_
  rw [ulp_eq, hE, zpow_sub₀ (by norm_num)]
  have ha := Int.zpow_log_le_self (b := 2) (by norm_num) hx
  push_cast at ha
  have : (2 : ℚ) ^ Int.log 2 x / 2 ^ (52 : ℤ) / 2 = 2 ^ Int.log 2 x / 2 ^ 53 := by
    norm_num
    ring
  rw [this]
  exact div_le_div_of_nonneg_right ha (by positivity)

/-! ## Accumulated errors -/

/-- The factor by which a rounded number can be off. -/
def lam : ℚ := 2 ^ 53 / (2 ^ 53 - 1)

theorem one_le_lam : 1 ≤ lam := by unfold lam; norm_num

theorem lam_pos : 0 < lam := lt_of_lt_of_le one_pos one_le_lam

/-- `b` is `a` up to the factor `lam ^ k`: what `k` roundings can do. -/
def Rel (k : Nat) (a b : ℚ) : Prop := a ≤ lam ^ k * b ∧ b ≤ lam ^ k * a

theorem Rel.refl {a : ℚ} (k : Nat) (h : 0 ≤ a) : Rel k a a :=
  have := one_le_pow₀ one_le_lam (n := k)
  ⟨by nlinarith, by nlinarith⟩

theorem Rel.mono {k l : Nat} {a b : ℚ} (ha : 0 ≤ a) (hb : 0 ≤ b) (h : Rel k a b) (hkl : k ≤ l) : Rel l a b := by
  have := pow_le_pow_right₀ one_le_lam hkl
  exact ⟨h.1.trans (mul_le_mul_of_nonneg_right this hb), h.2.trans (mul_le_mul_of_nonneg_right this ha)⟩

theorem Rel.trans {k l : Nat} {a b c : ℚ} (h : Rel k a b) (h' : Rel l b c) : Rel (k + l) a c := by
  have hp := pow_pos lam_pos
  constructor
  · refine h.1.trans ?_
    rw [pow_add, mul_assoc]
    exact mul_le_mul_of_nonneg_left h'.1 (hp k).le
  · refine h'.2.trans ?_
    rw [pow_add, mul_comm (lam ^ k), mul_assoc]
    exact mul_le_mul_of_nonneg_left h.2 (hp l).le

theorem Rel.add {k : Nat} {a b c d : ℚ} (h : Rel k a b) (h' : Rel k c d) : Rel k (a + c) (b + d) :=
  ⟨by rw [mul_add]; exact add_le_add h.1 h'.1, by rw [mul_add]; exact add_le_add h.2 h'.2⟩

theorem Rel.div {k l : Nat} {a b c d : ℚ} (hc : 0 < c) (hd : 0 < d) (hb : 0 ≤ b) (ha : 0 ≤ a) (h : Rel k a b) (h' : Rel l c d) :
    Rel (k + l) (a / c) (b / d) := by
  have hp := pow_pos lam_pos
  constructor
  · rw [div_le_iff₀ hc, pow_add]
    calc a ≤ lam ^ k * b := h.1
      _ = lam ^ k * (b / d) * d := by field_simp
      _ ≤ lam ^ k * (b / d) * (lam ^ l * c) :=
        mul_le_mul_of_nonneg_left h'.2 (mul_nonneg (hp k).le (div_nonneg hb hd.le))
      _ = _ := by ring
  · rw [div_le_iff₀ hd, pow_add]
    calc b ≤ lam ^ k * a := h.2
      _ = lam ^ k * (a / c) * c := by field_simp
      _ ≤ lam ^ k * (a / c) * (lam ^ l * d) :=
        mul_le_mul_of_nonneg_left h'.1 (mul_nonneg (hp k).le (div_nonneg ha hc.le))
      _ = _ := by ring

/-- Zero, or so large that rounding has a small relative error. -/
def Normal (x : ℚ) : Prop := x = 0 ∨ 2 ^ (-1022 : ℤ) ≤ x

theorem Rel.fl {x : ℚ} (h : Normal x) : Rel 1 x (fl x) := by
  rcases h with rfl | h
  · rw [fl_zero]; exact Rel.refl 1 le_rfl
  · have hx : 0 < x := lt_of_lt_of_le (by positivity) h
    have := abs_le.1 (fl_rel h)
    unfold Rel lam
    rw [pow_one]
    constructor
    · rw [div_mul_eq_mul_div, le_div_iff₀ (by norm_num)]
      linarith [this.1]
    · rw [div_mul_eq_mul_div, le_div_iff₀ (by norm_num)]
      nlinarith [this.2]

theorem normal_of_le {x y : ℚ} (hy : 2 ^ (-1022 : ℤ) ≤ y) (h : y ≤ x) : Normal x := Or.inr (hy.trans h)

theorem tiny_le {n : Nat} (hn : n ≤ 1022) : (2 : ℚ) ^ (-1022 : ℤ) ≤ 1 / 2 ^ n := by
  rw [one_div, ← zpow_natCast, ← zpow_neg]
  exact zpow_le_zpow_right₀ (by norm_num) (by omega)

theorem normal_nat (n : Nat) : Normal n := by
  rcases Nat.eq_zero_or_pos n with rfl | h
  · left; simp
  · refine normal_of_le (tiny_le (n := 0) (by omega)) ?_
    norm_num
    exact_mod_cast h

/-! ## Sums of shares -/

/-- `f` is the floating-point value of the sum `c` of shares of the weights `t` (in total). -/
structure Near (t : Nat) (c f : ℚ) : Prop where
  f64 : fl f = f
  nonneg : 0 ≤ c
  le : c ≤ t
  rel : Rel t c f
  big : f = 0 ∨ 1 / 16 ≤ f

theorem Near.pos {t : Nat} {c f : ℚ} (h : Near t c f) : 0 ≤ f := by
  rcases h.big with h | h
  · exact h.ge
  · linarith

theorem Near.zero_f {c f : ℚ} (h : Near 0 c f) : c = 0 ∧ f = 0 := by
  have h1 : c ≤ 0 := by simpa using h.le
  have hc := le_antisymm h1 h.nonneg
  have := h.rel.2
  rw [hc, mul_zero] at this
  exact ⟨hc, le_antisymm this h.pos⟩

theorem near_zero : Near 0 0 0 :=
  ⟨fl_zero, le_rfl, by simp, Rel.refl 0 le_rfl, Or.inl rfl⟩

theorem fl_ge {x : ℚ} (h : 1 / 16 ≤ x) : 1 / 16 ≤ fl x := by
  have h1 : fl (1 / 16) = 1 / 16 := fl_of_isF64 ⟨1, -4, by norm_num, by norm_num, by norm_num⟩
  rw [← h1]
  exact fl_mono (by norm_num) h

theorem normal_big {x : ℚ} (h : 1 / 16 ≤ x) : Normal x :=
  normal_of_le (tiny_le (n := 4) (by omega)) (by norm_num; linarith)

theorem Near.add {t t' : Nat} {c c' f f' : ℚ} (h : Near t c f) (h' : Near t' c' f') : Near (t + t') (c + c') (fl (f + f')) := by
  rcases Nat.eq_zero_or_pos t with rfl | ht
  · obtain ⟨rfl, rfl⟩ := h.zero_f
    rw [zero_add, zero_add, zero_add, h'.f64]
    exact h'
  rcases Nat.eq_zero_or_pos t' with rfl | ht'
  · obtain ⟨rfl, rfl⟩ := h'.zero_f
    rw [add_zero, add_zero, add_zero, h.f64]
    exact h
  have hbig : f + f' = 0 ∨ 1 / 16 ≤ f + f' := by
    have := h.pos
    have := h'.pos
    rcases h.big with e | e
    · rcases h'.big with e' | e'
      · left; linarith
      · right; linarith
    · right; linarith
  refine ⟨fl_fl _, add_nonneg h.nonneg h'.nonneg, ?_, ?_, ?_⟩
  · push_cast; exact add_le_add h.le h'.le
  · have r1 := h.rel.mono h.nonneg h.pos (le_max_left t t')
    have r2 := h'.rel.mono h'.nonneg h'.pos (le_max_right t t')
    have hn : Normal (f + f') := by
      rcases hbig with e | e
      · exact Or.inl e
      · exact normal_big e
    have := (r1.add r2).trans (Rel.fl hn)
    refine this.mono (add_nonneg h.nonneg h'.nonneg) (fl_nonneg (add_nonneg h.pos h'.pos)) ?_
    have := max_add_min t t'
    have : 1 ≤ min t t' := le_min ht ht'
    omega
  · rcases hbig with e | e
    · left; rw [e, fl_zero]
    · right; exact fl_ge e

/-- The share of a weight. -/
theorem near_share (w : Nat) {n : Nat} (h1 : 1 ≤ n) (h9 : n ≤ 9) : Near w ((w : ℚ) / n) (fl (fl w / fl n)) := by
  have hn : (1 : ℚ) ≤ n := by exact_mod_cast h1
  have hn9 : (n : ℚ) ≤ 9 := by exact_mod_cast h9
  rw [fl_nat (n := n) (by omega)]
  rcases Nat.eq_zero_or_pos w with rfl | hw
  · have e : fl ((fl ((0 : Nat) : ℚ)) / n) = 0 := by simp [fl_zero]
    rw [e, Nat.cast_zero, zero_div]
    exact near_zero
  have hw1 : (1 : ℚ) ≤ w := by exact_mod_cast hw
  have hfw : 1 ≤ fl w := by
    have := fl_mono (by norm_num) hw1
    rwa [show fl 1 = 1 by simpa using fl_nat (n := 1) (by norm_num)] at this
  have hbig : 1 / 16 ≤ fl w / n := by
    rw [le_div_iff₀ (by linarith)]
    linarith
  refine ⟨fl_fl _, by positivity, ?_, ?_, Or.inr (fl_ge hbig)⟩
  · rw [div_le_iff₀ (by linarith)]
    nlinarith
  · have hr : Rel (if w ≤ 2 ^ 53 then 0 else 1) (w : ℚ) (fl w) := by
      split
      · next h => rw [fl_nat h]; exact Rel.refl 0 (by linarith)
      · exact Rel.fl (normal_nat w)
    have := (hr.div (l := 0) (by linarith) (by linarith) (by linarith) (by linarith) (Rel.refl 0 (by linarith : (0 : ℚ) ≤ n))).trans
      (Rel.fl (normal_big hbig))
    refine this.mono (by positivity) (fl_nonneg (by positivity)) ?_
    split <;> omega

/-- Sums of whole numbers are exact up to `2 ^ 53`. -/
structure Whole (c f : ℚ) : Prop where
  whole : ∃ m : Nat, c = m
  exact : c ≤ 2 ^ 53 → f = c

theorem Whole.add {c c' f f' : ℚ} (h : Whole c f) (h' : Whole c' f') : Whole (c + c') (fl (f + f')) := by
  obtain ⟨m, rfl⟩ := h.whole
  obtain ⟨m', rfl⟩ := h'.whole
  have hm : (0 : ℚ) ≤ m := by positivity
  have hm' : (0 : ℚ) ≤ m' := by positivity
  refine ⟨⟨m + m', by push_cast; rfl⟩, fun hle => ?_⟩
  rw [h.exact (by linarith), h'.exact (by linarith)]
  have : m + m' ≤ 2 ^ 53 := by exact_mod_cast hle
  exact_mod_cast fl_nat this

theorem whole_nat (n : Nat) : Whole n (fl n) := ⟨⟨n, rfl⟩, fun h => fl_nat (by exact_mod_cast h)⟩

/-- Sums of halves are exact up to `2 ^ 52`. -/
structure Half (c f : ℚ) : Prop where
  half : ∃ m : Nat, c = (m : ℚ) / 2
  exact : c ≤ 2 ^ 52 → f = c

theorem Half.add {c c' f f' : ℚ} (h : Half c f) (h' : Half c' f') : Half (c + c') (fl (f + f')) := by
  obtain ⟨m, rfl⟩ := h.half
  obtain ⟨m', rfl⟩ := h'.half
  have hm : (0 : ℚ) ≤ m := by positivity
  have hm' : (0 : ℚ) ≤ m' := by positivity
  refine ⟨⟨m + m', by push_cast; ring⟩, fun hle => ?_⟩
  rw [h.exact (by linarith), h'.exact (by linarith)]
  have : m + m' ≤ 2 ^ 53 := by
    have : (m : ℚ) + m' ≤ 2 ^ 53 := by linarith
    exact_mod_cast this
  have := fl_half this
  push_cast at this
  rw [← add_div]
  exact this

theorem half_share (w : Nat) : Half ((w : ℚ) / 2) (fl (fl w / fl 2)) := by
  refine ⟨⟨w, rfl⟩, fun h => ?_⟩
  have hw : w ≤ 2 ^ 53 := by
    have : (w : ℚ) ≤ 2 ^ 53 := by linarith
    exact_mod_cast this
  rw [fl_nat hw, show fl 2 = 2 by simpa using fl_nat (n := 2) (by norm_num), fl_half hw]

theorem half_zero : Half 0 0 := ⟨⟨0, by simp⟩, fun _ => rfl⟩

theorem whole_zero : Whole 0 0 := ⟨⟨0, by simp⟩, fun _ => rfl⟩

end Pokers
