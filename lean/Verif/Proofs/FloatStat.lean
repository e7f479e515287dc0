import Verif.Proofs.FloatSqrt
import Verif.Proofs.McBound
import Verif.Proofs.FloatStep
import Mathlib.Tactic.GCongr
/-!
# The standard deviation computed with floating-point numbers
-/
namespace Pokers
open Spec CombinedRange Finset

/-- The absolute error of rounding a number that is at most `B`. -/
theorem fl_abs {y B : ℚ} (h : |y| ≤ B) (hB : 2 ^ (-1022 : ℤ) ≤ B) : |fl y - y| ≤ B / 2 ^ 53 := by
  have hB0 : 0 < B := lt_of_lt_of_le (by positivity) hB
  rcases eq_or_ne y 0 with rfl | hy
  · rw [fl_zero]
    simp only [sub_self, abs_zero]
    positivity
  have hpos : 0 < |y| := abs_pos.2 hy
  refine (fl_err y).trans ?_
  unfold ulp
  rcases max_choice (Int.log 2 |y| - 52) (-1074) with hE | hE
  · rw [hE, zpow_sub₀ (by norm_num)]
    have ha := Int.zpow_log_le_self (b := 2) (by norm_num) hpos
    push_cast at ha
    have : (2 : ℚ) ^ Int.log 2 |y| / 2 ^ (52 : ℤ) / 2 = 2 ^ Int.log 2 |y| / 2 ^ 53 := by
      norm_num
      ring
    rw [this]
    exact div_le_div_of_nonneg_right (ha.trans h) (by positivity)
  · rw [hE]
    have : (2 : ℚ) ^ (-1074 : ℤ) / 2 = 2 ^ (-1022 : ℤ) / 2 ^ 53 := by
      rw [div_eq_div_iff (by norm_num) (by norm_num), show (-1022 : ℤ) = -1074 + 52 by norm_num, zpow_add₀ (by norm_num)]
      generalize (2 : ℚ) ^ (-1074 : ℤ) = t
      norm_num
      ring
    rw [this]
    exact div_le_div_of_nonneg_right hB (by positivity)

theorem fl_le_nat {y : ℚ} (h0 : 0 ≤ y) {n : Nat} (hn : n ≤ 2 ^ 53) (h : y ≤ n) : fl y ≤ n := by
  have := fl_mono h0 h
  rwa [fl_nat hn] at this

/-- The bound on the powers of the factor. -/
theorem lam_pow_le {k : Nat} (hk : k ≤ 2 ^ 52) : lam ^ k ≤ 1 + (k : ℚ) / 2 ^ 52 := by
  have hk' : (k : ℚ) ≤ 2 ^ 52 := by exact_mod_cast hk
  have hp := pow_pos lam_pos k
  have hb : 1 - (k : ℚ) / 2 ^ 53 ≤ (lam ^ k)⁻¹ := by
    have := one_add_mul_le_pow (a := -(1 / 2 ^ 53 : ℚ)) (by norm_num) k
    rw [← inv_pow]
    have e : (lam⁻¹ : ℚ) = 1 + -(1 / 2 ^ 53) := by unfold lam; norm_num
    rw [e]
    refine le_trans (le_of_eq ?_) this
    ring
  have hpos : (0 : ℚ) < 1 - (k : ℚ) / 2 ^ 53 := by
    have : (k : ℚ) / 2 ^ 53 ≤ 1 / 2 := by rw [div_le_iff₀ (by norm_num)]; linarith
    linarith
  have h1 : lam ^ k * (1 - (k : ℚ) / 2 ^ 53) ≤ 1 := by
    calc lam ^ k * (1 - (k : ℚ) / 2 ^ 53) ≤ lam ^ k * (lam ^ k)⁻¹ := mul_le_mul_of_nonneg_left hb hp.le
      _ = 1 := mul_inv_cancel₀ hp.ne'
  have h2 : 1 ≤ (1 + (k : ℚ) / 2 ^ 52) * (1 - (k : ℚ) / 2 ^ 53) := by
    have : (k : ℚ) / 2 ^ 52 = 2 * ((k : ℚ) / 2 ^ 53) := by ring
    rw [this]
    have h3 : (k : ℚ) / 2 ^ 53 ≤ 1 / 2 := by rw [div_le_iff₀ (by norm_num)]; linarith
    have h4 : 0 ≤ (k : ℚ) / 2 ^ 53 := by positivity
    nlinarith
  exact le_of_mul_le_mul_right (h1.trans h2) hpos

/-- What `k` roundings do to a number between 0 and 1. -/
theorem Rel.abs {k : Nat} (hk : k ≤ 2 ^ 52) {a f : ℚ} (ha1 : a ≤ 1) (h : Rel k a f) :
    |f - a| ≤ k / 2 ^ 52 := by
  have hl := lam_pow_le hk
  have h1 := one_le_pow₀ one_le_lam (n := k)
  obtain ⟨h2, h3⟩ := h
  have hx : 0 ≤ (k : ℚ) / 2 ^ 52 := by positivity
  generalize lam ^ k = L at *
  generalize (k : ℚ) / 2 ^ 52 = x at *
  rw [abs_le]
  constructor
  · by_cases hfa : f ≤ 1
    · nlinarith
    · linarith
  · nlinarith

/-! ## The estimate of a batch -/

/-- The part of the first player in the weight of the mask `i`. -/
def firstPart (b : Batch) (i : Nat) : Nat :=
  if i.testBit 0 = true then (if countOnes i = 1 then b.winsByMask i else b.winsByMask i / countOnes i) else 0

theorem firstPart_eq (b : Batch) (i : Nat) : (maskWins b 0 i : ℚ) + maskTies b 0 i = firstPart b i := by
  unfold maskWins maskTies firstPart tieShare
  by_cases h1 : i.testBit 0 = true <;> by_cases h2 : countOnes i = 1 <;> simp [h1, h2]

theorem firstPart_le (b : Batch) (i : Nat) : firstPart b i ≤ b.winsByMask i := by
  unfold firstPart
  split
  · split
    · exact le_rfl
    · exact Nat.div_le_self _ _
  · exact Nat.zero_le _

theorem mergePlayersF_equity (N : Nat) (b : Batch) (hb : IdPlayers N b) (i : Nat) (m : Merge) : ∀ n, n ≤ N →
    (mergePlayersF n b i m).1.batchHands = m.batchHands ∧
    (mergePlayersF n b i m).1.batchEquity =
      if 0 < n ∧ i.testBit 0 = true then fl (m.batchEquity + fl (firstPart b i)) else m.batchEquity := by
  intro n
  induction n with
  | zero => intro _; exact ⟨rfl, by rw [if_neg (fun h => by omega)]; rfl⟩
  | succ n ih =>
    intro hn
    obtain ⟨h1, h2⟩ := ih (by omega)
    have hid := hb n (by omega)
    have hstep : mergePlayersF (n + 1) b i m = (fun (x : Merge × Nat) =>
        if i &&& (1 <<< n) ≠ 0 then
          (if countOnes i = 1 then
            { x.1 with
              wins := Function.update x.1.wins n (x.1.wins n + b.winsByMask i),
              batchEquity := if n = 0 then fl (x.1.batchEquity + fl (b.winsByMask i)) else x.1.batchEquity }
          else
            { x.1 with
              ties := Function.update x.1.ties n (fl (x.1.ties n + fl (b.winsByMask i / countOnes i : Nat))),
              batchEquity := if n = 0 then fl (x.1.batchEquity + fl (b.winsByMask i / countOnes i : Nat)) else x.1.batchEquity },
           x.2 ||| (1 <<< n))
        else x) (mergePlayersF n b i m) := by
      unfold mergePlayersF
      rw [List.range_succ, List.foldl_append, List.foldl_cons, List.foldl_nil]
      simp only [hid]
    rw [hstep]
    generalize mergePlayersF n b i m = x at h1 h2
    simp only [and_shl_ne_zero]
    rcases Nat.eq_zero_or_pos n with rfl | hpos
    · rw [if_neg (fun h => by omega)] at h2
      by_cases hb : i.testBit 0 = true
      · rw [if_pos hb, if_pos (show 0 < 0 + 1 ∧ i.testBit 0 = true from ⟨by omega, hb⟩)]
        unfold firstPart
        rw [if_pos hb]
        by_cases hc : countOnes i = 1
        · rw [if_pos hc, if_pos hc, ← h2]
          exact ⟨h1, by simp only [if_true]⟩
        · rw [if_neg hc, if_neg hc, ← h2]
          exact ⟨h1, by simp only [if_true]⟩
      · rw [if_neg hb, if_neg (fun h => hb h.2)]
        exact ⟨h1, h2⟩
    · have h0 : n ≠ 0 := by omega
      have hiff : (0 < n + 1 ∧ i.testBit 0 = true) ↔ (0 < n ∧ i.testBit 0 = true) :=
        ⟨fun h => ⟨hpos, h.2⟩, fun h => ⟨Nat.succ_pos n, h.2⟩⟩
      simp only [hiff]
      rw [← h2, ← h1]
      by_cases hb : i.testBit n = true
      · rw [if_pos hb]
        by_cases hc : countOnes i = 1
        · rw [if_pos hc]
          exact ⟨rfl, if_neg h0⟩
        · rw [if_neg hc]
          exact ⟨rfl, if_neg h0⟩
      · rw [if_neg hb]
        exact ⟨rfl, rfl⟩

theorem fl_nat_big (n : Nat) : fl (n : ℚ) = 0 ∧ n = 0 ∨ 1 ≤ fl (n : ℚ) := by
  rcases Nat.eq_zero_or_pos n with rfl | h
  · left; exact ⟨by simpa using fl_zero, rfl⟩
  · right
    have h1 : fl ((1 : Nat) : ℚ) ≤ fl (n : ℚ) := fl_mono (by norm_num) (by exact_mod_cast h)
    rw [fl_nat (by norm_num)] at h1
    simpa using h1

/-- The sum of the parts of the first player, with rounding after each addition. -/
theorem mergeMasksF_equity (n : Nat) (hn : 0 < n) (b : Batch) (hb : IdPlayers n b) (wins : Nat → Nat) (ties : Nat → ℚ) (wm : Nat → Nat) :
    let m := mergeMasksF n b ⟨wins, ties, wm, 0, 0⟩
    m.batchHands = ∑ i ∈ range (2 ^ n), b.winsByMask i ∧
    Rel (2 ^ n + 1) ((∑ i ∈ range (2 ^ n), firstPart b i : Nat) : ℚ) m.batchEquity ∧ (m.batchEquity = 0 ∨ 1 ≤ m.batchEquity) := by
  intro m
  have key : ∀ N, let x := (List.range N).foldl (fun m i =>
      let m := { m with batchHands := m.batchHands + b.winsByMask i }
      let x := mergePlayersF n b i m
      { x.1 with
        winsByMask := Function.update x.1.winsByMask x.2 (x.1.winsByMask x.2 + b.winsByMask i) }) (⟨wins, ties, wm, 0, 0⟩ : Merge)
    x.batchHands = ∑ i ∈ range N, b.winsByMask i ∧
    Rel (N + 1) ((∑ i ∈ range N, firstPart b i : Nat) : ℚ) x.batchEquity ∧ (x.batchEquity = 0 ∨ 1 ≤ x.batchEquity) := by
    intro N
    induction N with
    | zero => exact ⟨rfl, by simpa using Rel.refl 1 le_rfl, Or.inl rfl⟩
    | succ N ih =>
      obtain ⟨h1, h2, h3⟩ := ih
      simp only at h1 h2 h3 ⊢
      rw [List.range_succ, List.foldl_append, List.foldl_cons, List.foldl_nil]
      generalize (List.range N).foldl _ _ = x at h1 h2 h3
      obtain ⟨g1, g2⟩ := mergePlayersF_equity n b hb N { x with batchHands := x.batchHands + b.winsByMask N } n le_rfl
      rw [g1, g2, Finset.sum_range_succ, Finset.sum_range_succ]
      refine ⟨by simp only [h1], ?_⟩
      have hx0 : 0 ≤ x.batchEquity := by rcases h3 with h | h <;> linarith
      have hs0 : (0 : ℚ) ≤ ((∑ i ∈ range N, firstPart b i : Nat) : ℚ) := Nat.cast_nonneg _
      by_cases hbit : N.testBit 0 = true
      · rw [if_pos ⟨hn, hbit⟩]
        simp only
        have hf0 : (0 : ℚ) ≤ fl (firstPart b N : ℚ) := fl_nonneg (Nat.cast_nonneg _)
        have r1 : Rel (N + 1) (firstPart b N : ℚ) (fl (firstPart b N)) :=
          (Rel.fl (normal_nat _)).mono (Nat.cast_nonneg _) hf0 (by omega)
        have r2 := h2.add r1
        have hnorm : x.batchEquity + fl (firstPart b N : ℚ) = 0 ∨ 1 ≤ x.batchEquity + fl (firstPart b N : ℚ) := by
          rcases h3 with h | h <;> rcases fl_nat_big (firstPart b N) with ⟨h', _⟩ | h'
          · left; rw [h, h']; norm_num
          · right; linarith
          · right; linarith
          · right; linarith
        have r3 := Rel.fl (x := x.batchEquity + fl (firstPart b N : ℚ)) (by
          rcases hnorm with h | h
          · exact Or.inl h
          · exact normal_of_le (tiny_le (n := 0) (by omega)) (by norm_num; exact h))
        refine ⟨?_, ?_⟩
        · rw [Nat.cast_add]
          exact r2.trans r3
        · rcases hnorm with h | h
          · left; rw [h, fl_zero]
          · right
            have := fl_mono (x := ((1 : Nat) : ℚ)) (by norm_num) (by simpa using h)
            rw [fl_nat (by norm_num)] at this
            simpa using this
      · have h0 : firstPart b N = 0 := by unfold firstPart; rw [if_neg hbit]
        rw [if_neg (fun h => hbit h.2), h0, add_zero]
        exact ⟨h2.mono hs0 hx0 (by omega), h3⟩
  have := key (2 ^ n)
  show (mergeMasksF n b ⟨wins, ties, wm, 0, 0⟩).batchHands = _ ∧ _
  unfold m mergeMasksF
  rw [Nat.one_shiftLeft]
  exact this

/-- The estimate that is computed from a batch, with rounding. -/
def estimateF (n : Nat) (b : Batch) (r : Results) : ℚ :=
  let m := mergeMasksF n b ⟨r.wins, r.ties, r.winsByMask, 0, 0⟩
  fl (m.batchEquity / fl (fl m.batchHands + fl eps))

/-- The estimate without rounding. -/
def estimate (n : Nat) (b : Batch) : ℚ :=
  ((∑ i ∈ range (2 ^ n), firstPart b i : Nat) : ℚ) / (((∑ i ∈ range (2 ^ n), b.winsByMask i : Nat) : ℚ) + eps)

theorem eps_pos : (0 : ℚ) < eps := by unfold eps; norm_num

theorem estimate_mem (n : Nat) (b : Batch) : 0 ≤ estimate n b ∧ estimate n b ≤ 1 := by
  have h : ∑ i ∈ range (2 ^ n), firstPart b i ≤ ∑ i ∈ range (2 ^ n), b.winsByMask i := Finset.sum_le_sum fun i _ => firstPart_le b i
  have h' : ((∑ i ∈ range (2 ^ n), firstPart b i : Nat) : ℚ) ≤ ((∑ i ∈ range (2 ^ n), b.winsByMask i : Nat) : ℚ) := by exact_mod_cast h
  have he := eps_pos
  have h0 : (0 : ℚ) ≤ ((∑ i ∈ range (2 ^ n), b.winsByMask i : Nat) : ℚ) := Nat.cast_nonneg _
  unfold estimate
  refine ⟨div_nonneg (Nat.cast_nonneg _) (by linarith), ?_⟩
  rw [div_le_one (by linarith)]
  linarith

/-- Rounding changes the estimate by at most `2 ^ -42`. -/
theorem estimateF_close {n : Nat} (hn : 0 < n) (h9 : n ≤ 9) {b : Batch} (hb : IdPlayers n b) (r : Results) :
    0 ≤ estimateF n b r ∧ |estimateF n b r - estimate n b| ≤ 1 / 2 ^ 42 := by
  obtain ⟨h1, h2, h3⟩ := mergeMasksF_equity n hn b hb r.wins r.ties r.winsByMask
  obtain ⟨e0, e1⟩ := estimate_mem n b
  unfold estimateF
  simp only
  generalize mergeMasksF n b ⟨r.wins, r.ties, r.winsByMask, 0, 0⟩ = m at h1 h2 h3
  rw [h1]
  unfold estimate at e0 e1 ⊢
  generalize (∑ i ∈ range (2 ^ n), b.winsByMask i) = H at *
  generalize hF : ((∑ i ∈ range (2 ^ n), firstPart b i : Nat) : ℚ) = F at *
  have hF0 : 0 ≤ F := by rw [← hF]; exact Nat.cast_nonneg _
  have hm0 : 0 ≤ m.batchEquity := by rcases h3 with h | h <;> linarith
  have he := eps_pos
  have hH0 : (0 : ℚ) ≤ H := Nat.cast_nonneg _
  have hn9 : 2 ^ n ≤ 2 ^ 9 := Nat.pow_le_pow_right (by omega) h9
  have r1 := Rel.fl (normal_nat H)
  have hen : Normal eps := normal_of_le (tiny_le (n := 30) (by omega)) (by unfold eps; norm_num)
  have r2 := Rel.fl hen
  have hE : 1 / 2 ^ 40 ≤ fl eps := by
    have h := fl_mono (x := 1 / 2 ^ 40) (y := eps) (by norm_num) (by unfold eps; norm_num)
    rwa [fl_of_isF64 ⟨1, -40, by norm_num, by norm_num, by norm_num⟩] at h
  have hH1 := fl_nonneg hH0
  have r3 := (r1.add r2).trans (Rel.fl (normal_of_le (tiny_le (n := 40) (by omega)) (show 1 / 2 ^ 40 ≤ fl (H : ℚ) + fl eps by linarith)))
  have hD : 0 < fl (fl (H : ℚ) + fl eps) := by
    have h := fl_mono (x := 1 / 2 ^ 40) (y := fl (H : ℚ) + fl eps) (by norm_num) (by linarith)
    rw [fl_of_isF64 ⟨1, -40, by norm_num, by norm_num, by norm_num⟩] at h
    linarith [show (0 : ℚ) < 1 / 2 ^ 40 by norm_num]
  have r4 := h2.div (by linarith) hD hm0 hF0 r3
  have hq0 : 0 ≤ m.batchEquity / fl (fl (H : ℚ) + fl eps) := div_nonneg hm0 hD.le
  generalize m.batchEquity / fl (fl (H : ℚ) + fl eps) = q at r4 hq0
  have hk : 2 ^ n + 1 + (1 + 1) ≤ 515 := by omega
  have r5 := r4.mono e0 hq0 hk
  have a1 := r5.abs (by norm_num) e1
  have hq2 : |q| ≤ 2 := by
    rw [abs_of_nonneg hq0]
    have := (abs_le.1 a1).2
    norm_num at this
    linarith
  have a2 := fl_abs hq2 ((tiny_le (n := 0) (by omega)).trans (by norm_num))
  refine ⟨fl_nonneg hq0, ?_⟩
  have := abs_sub_le (fl q) q (F / ((H : ℚ) + eps))
  norm_num at a1 a2 this ⊢
  linarith

/-! ## The sums over the batches -/

/-- The sum of the squares. -/
def sumSq (xs : List ℚ) : ℚ := (xs.map fun x => x * x).sum

/-- The number under the square root, without rounding. -/
def varOf (xs : List ℚ) : ℚ := eps + sumSq xs - xs.sum * xs.sum / xs.length

theorem sumSq_snoc (xs : List ℚ) (x : ℚ) : sumSq (xs ++ [x]) = sumSq xs + x * x := by simp [sumSq]

theorem sumSq_nonneg (xs : List ℚ) : 0 ≤ sumSq xs := by
  unfold sumSq
  apply List.sum_nonneg
  intro y hy
  obtain ⟨x, _, rfl⟩ := List.mem_map.1 hy
  exact mul_self_nonneg x

/-- Another batch does not decrease the sum of the squared deviations. -/
theorem varOf_mono (xs : List ℚ) (x : ℚ) : varOf xs ≤ varOf (xs ++ [x]) := by
  unfold varOf
  rw [sumSq_snoc, List.sum_append, List.length_append]
  simp only [List.sum_cons, List.sum_nil, List.length_cons, List.length_nil, add_zero, zero_add]
  rcases Nat.eq_zero_or_pos xs.length with h | h
  · have : xs = [] := List.length_eq_zero_iff.1 h
    subst this
    simp [sumSq]
  · have hk : (0 : ℚ) < xs.length := by exact_mod_cast h
    push_cast
    generalize (xs.length : ℚ) = k at hk ⊢
    generalize xs.sum = S
    have : eps + (sumSq xs + x * x) - (S + x) * (S + x) / (k + 1) - (eps + sumSq xs - S * S / k) = (S - k * x) ^ 2 / (k * (k + 1)) := by
      field_simp
      ring
    have h2 : 0 ≤ (S - k * x) ^ 2 / (k * (k + 1)) := by positivity
    linarith

theorem varOf_nil : varOf [] = eps := by simp [varOf, sumSq]

theorem eps_le_varOf (xs : List ℚ) : eps ≤ varOf xs := by
  induction xs using List.reverseRecOn with
  | nil => rw [varOf_nil]
  | append_singleton xs x ih => exact ih.trans (varOf_mono xs x)

theorem varOf_le {X : ℚ} (xs : List ℚ) (h : ∀ x ∈ xs, 0 ≤ x ∧ x ≤ X) : varOf xs ≤ eps + xs.length * X ^ 2 / 4 := by
  have h1 : sumSq xs ≤ X * xs.sum := by
    unfold sumSq
    induction xs with
    | nil => simp
    | cons x xs ih =>
      have hx := h x (by simp)
      have := ih fun y hy => h y (List.mem_cons_of_mem _ hy)
      rw [List.map_cons, List.sum_cons, List.sum_cons]
      nlinarith
  unfold varOf
  rcases Nat.eq_zero_or_pos xs.length with h0 | h0
  · have : xs = [] := List.length_eq_zero_iff.1 h0
    subst this
    simp [sumSq]
  · have hk : (0 : ℚ) < xs.length := by exact_mod_cast h0
    generalize (xs.length : ℚ) = k at hk ⊢
    generalize xs.sum = S at h1 ⊢
    have h2 : k * X ^ 2 / 4 - X * S + S * S / k = (S - k * X / 2) ^ 2 / k := by
      field_simp
      ring
    have h3 : 0 ≤ (S - k * X / 2) ^ 2 / k := by positivity
    linarith

/-- The sums kept in the results are close to the sums over the estimates. -/
structure FStat (r : Results) (xs : List ℚ) : Prop where
  count : r.batchCount = xs.length
  mem : ∀ x ∈ xs, 0 ≤ x ∧ x ≤ 1 + 1 / 2 ^ 42
  s0 : 0 ≤ r.batchSum
  s1 : r.batchSum ≤ 2 * xs.length
  q0 : 0 ≤ r.batchSum2
  q1 : r.batchSum2 ≤ 4 * xs.length
  s : |r.batchSum - xs.sum| ≤ xs.length * (xs.length + 1) / 2 ^ 53
  q : |r.batchSum2 - sumSq xs| ≤ (2 * xs.length * (xs.length + 1) + 4 * xs.length) / 2 ^ 53

theorem one_tiny : (2 : ℚ) ^ (-1022 : ℤ) ≤ 1 := (tiny_le (n := 0) (by omega)).trans (by norm_num)

theorem FStat.snoc {r r' : Results} {xs : List ℚ} (h : FStat r xs) (hk : xs.length < 2 ^ 50) {x : ℚ} (hx0 : 0 ≤ x) (hx1 : x ≤ 1 + 1 / 2 ^ 42)
    (h1 : r'.batchSum = fl (r.batchSum + x)) (h2 : r'.batchSum2 = fl (r.batchSum2 + fl (x * x))) (h3 : r'.batchCount = fl (r.batchCount + 1)) :
    FStat r' (xs ++ [x]) := by
  obtain ⟨c, mem, s0, s1, q0, q1, s, q⟩ := h
  have hlen : ((xs ++ [x]).length : ℚ) = xs.length + 1 := by rw [List.length_append]; push_cast; rfl
  have hkk : (0 : ℚ) ≤ xs.length := Nat.cast_nonneg _
  have hx2 : x ≤ 2 := by norm_num at hx1; linarith
  have hxx : x * x ≤ 4 := by nlinarith
  have hfx : fl (x * x) ≤ 4 := by
    have := fl_le_nat (y := x * x) (mul_self_nonneg x) (n := 4) (by norm_num) (by exact_mod_cast hxx)
    exact_mod_cast this
  have hfx0 : 0 ≤ fl (x * x) := fl_nonneg (mul_self_nonneg x)
  have e1 := fl_abs (y := x * x) (B := 4) (by rw [abs_of_nonneg (mul_self_nonneg x)]; exact hxx) (one_tiny.trans (by norm_num))
  have e2 := fl_abs (y := r.batchSum + x) (B := 2 * (xs.length + 1)) (by rw [abs_of_nonneg (by linarith)]; linarith) (one_tiny.trans (by linarith))
  have e3 := fl_abs (y := r.batchSum2 + fl (x * x)) (B := 4 * (xs.length + 1)) (by rw [abs_of_nonneg (by linarith)]; linarith) (one_tiny.trans (by linarith))
  refine ⟨?_, ?_, ?_, ?_, ?_, ?_, ?_, ?_⟩
  · rw [h3, c]
    have : ((xs.length : ℚ) + 1) = ((xs.length + 1 : Nat) : ℚ) := by push_cast; rfl
    rw [this, fl_nat (by omega), List.length_append]
    rfl
  · intro y hy
    rcases List.mem_append.1 hy with hy | hy
    · exact mem y hy
    · rw [List.mem_singleton] at hy
      subst hy
      exact ⟨hx0, hx1⟩
  · rw [h1]; exact fl_nonneg (by linarith)
  · rw [h1, hlen]
    have := fl_le_nat (y := r.batchSum + x) (by linarith) (n := 2 * (xs.length + 1)) (by omega) (by push_cast; linarith)
    push_cast at this
    exact this
  · rw [h2]; exact fl_nonneg (by linarith)
  · rw [h2, hlen]
    have := fl_le_nat (y := r.batchSum2 + fl (x * x)) (by linarith) (n := 4 * (xs.length + 1)) (by omega) (by push_cast; linarith)
    push_cast at this
    exact this
  · rw [h1, hlen, List.sum_append]
    simp only [List.sum_cons, List.sum_nil, add_zero]
    generalize (xs.length : ℚ) = k at *
    rw [abs_le] at *
    constructor <;> linarith [e2.1, e2.2, s.1, s.2]
  · rw [h2, hlen, sumSq_snoc]
    generalize (xs.length : ℚ) = k at *
    rw [abs_le] at *
    constructor <;> linarith [e1.1, e1.2, e3.1, e3.2, q.1, q.2]

/-- The number under the square root, with its rounding error. -/
theorem FStat.variance {r : Results} {xs : List ℚ} (h : FStat r xs) (hk : 0 < xs.length) :
    |varianceF r.batchSum r.batchSum2 r.batchCount - varOf xs| ≤ (xs.length + 2) ^ 2 / 2 ^ 50 := by
  obtain ⟨c, mem, s0, s1, q0, q1, s, q⟩ := h
  have hk1 : (1 : ℚ) ≤ xs.length := by exact_mod_cast hk
  have hsum0 : 0 ≤ xs.sum := List.sum_nonneg fun x hx => (mem x hx).1
  have hsum1 : xs.sum ≤ 2 * xs.length := by
    have : ∀ ys : List ℚ, (∀ x ∈ ys, 0 ≤ x ∧ x ≤ 1 + 1 / 2 ^ 42) → ys.sum ≤ 2 * ys.length := by
      intro ys
      induction ys with
      | nil => simp
      | cons y ys ih =>
        intro hm
        have h1 := (hm y (by simp)).2
        have h2 := ih fun x hx => hm x (List.mem_cons_of_mem _ hx)
        rw [List.sum_cons, List.length_cons]
        push_cast
        norm_num at h1
        linarith
    exact this xs mem
  rw [c]
  unfold varianceF varOf
  generalize (xs.length : ℚ) = k at *
  generalize r.batchSum = F at *
  generalize r.batchSum2 = G at *
  generalize xs.sum = S at *
  generalize sumSq xs = Q at *
  have he : (0 : ℚ) < eps ∧ eps ≤ 1 / 2 := by unfold eps; norm_num
  have e1 := fl_abs (y := eps) (B := 1) (by rw [abs_of_nonneg he.1.le]; linarith [he.2]) one_tiny
  have hfe0 : 0 ≤ fl eps := fl_nonneg he.1.le
  have hfe1 : fl eps ≤ 1 := by
    have := fl_le_nat (y := eps) he.1.le (n := 1) (by norm_num) (by push_cast; linarith [he.2])
    exact_mod_cast this
  have e2 := fl_abs (y := fl eps + G) (B := 4 * k + 1) (by rw [abs_of_nonneg (by linarith)]; linarith) (one_tiny.trans (by linarith))
  have hFF : F * F ≤ 4 * k ^ 2 := by nlinarith
  have e3 := fl_abs (y := F * F) (B := 4 * k ^ 2) (by rw [abs_of_nonneg (mul_self_nonneg F)]; exact hFF) (one_tiny.trans (by nlinarith))
  have hp0 : 0 ≤ fl (F * F) := fl_nonneg (mul_self_nonneg F)
  have hp1 : fl (F * F) ≤ 8 * k ^ 2 := by
    have := (abs_le.1 e3).2
    have h2 : 4 * k ^ 2 / 2 ^ 53 ≤ 4 * k ^ 2 := div_le_self (by positivity) (by norm_num)
    linarith
  have hk0 : (0 : ℚ) < k := by linarith
  have hd0 : 0 ≤ fl (F * F) / k := div_nonneg hp0 hk0.le
  have hd1 : fl (F * F) / k ≤ 8 * k := by rw [div_le_iff₀ hk0]; nlinarith
  have e4 := fl_abs (y := fl (F * F) / k) (B := 8 * k) (by rw [abs_of_nonneg hd0]; exact hd1) (one_tiny.trans (by linarith))
  -- the quotient
  have hFS : |F * F - S * S| ≤ k * (k + 1) / 2 ^ 53 * (4 * k) := by
    have : F * F - S * S = (F - S) * (F + S) := by ring
    rw [this, abs_mul]
    have h1 : |F + S| ≤ 4 * k := by rw [abs_of_nonneg (by linarith)]; linarith
    exact mul_le_mul s h1 (abs_nonneg _) (by positivity)
  have hq : |fl (F * F) / k - S * S / k| ≤ (4 * k * (k + 1) + 4 * k) / 2 ^ 53 := by
    rw [← sub_div, abs_div, abs_of_pos hk0, div_le_iff₀ hk0]
    have h1 := abs_sub_le (fl (F * F)) (F * F) (S * S)
    refine h1.trans ((add_le_add e3 hFS).trans (le_of_eq ?_))
    ring
  have ha0 := fl_nonneg (x := fl eps + G) (by linarith)
  have ha1 : fl (fl eps + G) ≤ 9 * k := by
    have := (abs_le.1 e2).2
    have h2 : (4 * k + 1) / 2 ^ 53 ≤ k := by rw [div_le_iff₀ (by norm_num)]; norm_num; linarith
    linarith
  have hb0 := fl_nonneg hd0
  have hb1 : fl (fl (F * F) / k) ≤ 9 * k := by
    have := (abs_le.1 e4).2
    have h2 : 8 * k / 2 ^ 53 ≤ k := by rw [div_le_iff₀ (by norm_num)]; norm_num; linarith
    linarith
  have e5 := fl_abs (y := fl (fl eps + G) - fl (fl (F * F) / k)) (B := 9 * k) (abs_le.2 ⟨by linarith, by linarith⟩) (one_tiny.trans (by linarith))
  generalize fl (fl (fl eps + G) - fl (fl (F * F) / k)) = v at *
  generalize fl (fl eps + G) = a at *
  generalize fl (fl (F * F) / k) = b at *
  have hlast : (6 * k ^ 2 + 35 * k + 2) / 2 ^ 53 ≤ (k + 2) ^ 2 / 2 ^ 50 := by
    rw [div_le_div_iff₀ (by norm_num) (by norm_num)]
    nlinarith [sq_nonneg (k - 1)]
  refine le_trans ?_ hlast
  rw [abs_le] at *
  constructor <;> linarith [e1.1, e1.2, e2.1, e2.2, q.1, q.2, hq.1, hq.2, e4.1, e4.2, e5.1, e5.2]

theorem updateResultsF_sums (dev : ℚ → ℚ → Option ℚ) (n : Nat) (bt : Batch) (hb : HandStats) (r : Results) :
    let r' := updateResultsF dev n false bt hb r
    r'.batchSum = fl (r.batchSum + estimateF n bt r) ∧
    r'.batchSum2 = fl (r.batchSum2 + fl (estimateF n bt r * estimateF n bt r)) ∧
    r'.batchCount = fl (r.batchCount + 1) ∧
    r'.stdev = (dev (varianceF r'.batchSum r'.batchSum2 r'.batchCount) r'.batchCount).getD 0 := by
  refine ⟨rfl, rfl, rfl, rfl⟩

theorem estimateF_mem {n : Nat} (hn : 0 < n) (h9 : n ≤ 9) {b : Batch} (hb : IdPlayers n b) (r : Results) :
    0 ≤ estimateF n b r ∧ estimateF n b r ≤ 1 + 1 / 2 ^ 42 := by
  obtain ⟨h0, h1⟩ := estimateF_close hn h9 hb r
  have := (abs_le.1 h1).2
  have := (estimate_mem n b).2
  exact ⟨h0, by linarith⟩

/-- One more batch. -/
theorem FStat.update {r : Results} {xs : List ℚ} (h : FStat r xs) (hk : xs.length < 2 ^ 50) (dev : ℚ → ℚ → Option ℚ) {n : Nat} (hn : 0 < n)
    (h9 : n ≤ 9) {bt : Batch} (hid : IdPlayers n bt) (hb : HandStats) :
    FStat (updateResultsF dev n false bt hb r) (xs ++ [estimateF n bt r]) := by
  obtain ⟨h0, h1⟩ := estimateF_mem hn h9 hid r
  obtain ⟨g1, g2, g3, _⟩ := updateResultsF_sums dev n bt hb r
  exact h.snoc hk h0 h1 g1 g2 g3

theorem FStat.nil {r : Results} (h : NoBatch r) : FStat r [] := by
  obtain ⟨h1, h2, h3⟩ := h
  refine ⟨by simp [h3], by simp, by simp [h1], by simp [h1], by simp [h2], by simp [h2], by simp [h1], by simp [h2, sumSq]⟩

/-! ## The standard deviation -/

/-- The standard deviation, when the number under the root is positive. -/
theorem devF_rel {v : ℚ} (hv : 2 ^ (-1022 : ℤ) ≤ v) {k : Nat} (hk : 0 < k) (hk2 : k ≤ 2 ^ 50) (hv' : 1 / 2 ^ 200 ≤ v) :
    ∃ d, devF v k = some d ∧ 0 < d ∧ (d * k) ^ 2 * (1 - 1 / 2 ^ 50) ≤ v ∧ v ≤ (d * k) ^ 2 * (1 + 1 / 2 ^ 50) := by
  obtain ⟨f, hf, hf0, h1, h2⟩ := fsqrt_rel hv
  have hk' : (0 : ℚ) < k := by exact_mod_cast hk
  have hkm : (k : ℚ) ≤ 2 ^ 50 := by exact_mod_cast hk2
  have hq0 : 0 < f / k := div_pos hf0 hk'
  have hf1 : 1 / 2 ^ 101 ≤ f := by
    by_contra hcon
    push Not at hcon
    have h3 : f ^ 2 ≤ (1 / 2 ^ 101) ^ 2 := by gcongr
    have : v ≤ (1 / 2 ^ 101) ^ 2 * (1 + 1 / 2 ^ 53) ^ 2 := h2.trans (mul_le_mul_of_nonneg_right h3 (by positivity))
    norm_num at this hv'
    linarith
  have hq1 : 1 / 2 ^ 151 ≤ f / k := by
    rw [le_div_iff₀ hk']
    calc (1 / 2 ^ 151 : ℚ) * k ≤ 1 / 2 ^ 151 * 2 ^ 50 := by gcongr
      _ = 1 / 2 ^ 101 := by norm_num
      _ ≤ f := hf1
  obtain ⟨r1, r2⟩ := Rel.fl (normal_of_le (tiny_le (n := 151) (by omega)) hq1)
  have hpos : 0 < fl (f / k) := by
    rw [pow_one] at r1 r2
    have := lam_pos
    by_contra hcon
    push Not at hcon
    nlinarith
  refine ⟨fl (f / k), ?_, hpos, ?_, ?_⟩
  · unfold devF
    rw [hf]
    simp [ffdiv, hk'.ne']
  all_goals
    generalize fl (f / k) = d at *
    rw [pow_one] at r1 r2
    have e : f = f / k * k := by field_simp
    generalize f / k = y at *
    subst e
    have hk2' : (0 : ℚ) ≤ (k : ℚ) ^ 2 := by positivity
    have hlam := lam_pos
  · have h3 : d ^ 2 ≤ lam ^ 2 * y ^ 2 := by
      rw [← mul_pow]
      exact pow_le_pow_left₀ hpos.le r2 2
    have h4 : lam ^ 2 * (1 - 1 / 2 ^ 50) ≤ (1 - 1 / 2 ^ 53) ^ 2 := by unfold lam; norm_num
    calc (d * k) ^ 2 * (1 - 1 / 2 ^ 50) = d ^ 2 * (k ^ 2 * (1 - 1 / 2 ^ 50)) := by ring
      _ ≤ lam ^ 2 * y ^ 2 * (k ^ 2 * (1 - 1 / 2 ^ 50)) := mul_le_mul_of_nonneg_right h3 (mul_nonneg hk2' (by norm_num))
      _ = (y * k) ^ 2 * (lam ^ 2 * (1 - 1 / 2 ^ 50)) := by ring
      _ ≤ (y * k) ^ 2 * (1 - 1 / 2 ^ 53) ^ 2 := mul_le_mul_of_nonneg_left h4 (by positivity)
      _ ≤ v := h1
  · have h3 : y ^ 2 ≤ lam ^ 2 * d ^ 2 := by
      rw [← mul_pow]
      exact pow_le_pow_left₀ hq0.le r1 2
    have h4 : lam ^ 2 * (1 + 1 / 2 ^ 53) ^ 2 ≤ 1 + 1 / 2 ^ 50 := by unfold lam; norm_num
    calc v ≤ (y * k) ^ 2 * (1 + 1 / 2 ^ 53) ^ 2 := h2
      _ = y ^ 2 * (k ^ 2 * (1 + 1 / 2 ^ 53) ^ 2) := by ring
      _ ≤ lam ^ 2 * d ^ 2 * (k ^ 2 * (1 + 1 / 2 ^ 53) ^ 2) := mul_le_mul_of_nonneg_right h3 (by positivity)
      _ = (d * k) ^ 2 * (lam ^ 2 * (1 + 1 / 2 ^ 53) ^ 2) := by ring
      _ ≤ (d * k) ^ 2 * (1 + 1 / 2 ^ 50) := mul_le_mul_of_nonneg_left h4 (by positivity)

/-- The variance is positive for up to 1000 batches. -/
theorem FStat.pos {r : Results} {xs : List ℚ} (h : FStat r xs) (hk : 0 < xs.length) (hk2 : xs.length ≤ 1000) :
    1 / 2 ^ 35 ≤ varianceF r.batchSum r.batchSum2 r.batchCount := by
  have h1 := (abs_le.1 (h.variance hk)).1
  have h2 := eps_le_varOf xs
  have hk' : (xs.length : ℚ) ≤ 1000 := by exact_mod_cast hk2
  have h3 : ((xs.length : ℚ) + 2) ^ 2 / 2 ^ 50 ≤ 1002 ^ 2 / 2 ^ 50 := by
    have h0 : (0 : ℚ) ≤ xs.length := Nat.cast_nonneg _
    gcongr
    linarith
  have h4 : (1 : ℚ) / 2 ^ 35 + 1002 ^ 2 / 2 ^ 50 ≤ eps := by unfold eps; norm_num
  linarith

/-- A deviation that is a number and not below the target bounds the variance from below. -/
theorem FStat.large {r : Results} {xs : List ℚ} (h : FStat r xs) (hk : 0 < xs.length) (hk2 : xs.length ≤ 2 ^ 50)
    (hv : 1 / 2 ^ 200 ≤ varianceF r.batchSum r.batchSum2 r.batchCount) {T : ℚ} (hT : 1 / 2 ^ 20 ≤ T) :
    ∃ d, devF (varianceF r.batchSum r.batchSum2 r.batchCount) r.batchCount = some d ∧
      (¬ d < T → T ^ 2 * xs.length ^ 2 / 2 ≤ varOf xs) ∧ (1 / (3 * T ^ 2) < xs.length → d < T) := by
  obtain ⟨d, h1, h2, h3, h4⟩ := devF_rel ((tiny_le (n := 200) (by omega)).trans hv) hk hk2 hv
  have hvar := h.variance hk
  rw [h.count] at hv hvar ⊢
  have hk1 : (1 : ℚ) ≤ xs.length := by exact_mod_cast hk
  have hT0 : 0 < T := lt_of_lt_of_le (by norm_num) hT
  have hTT : 1 / 2 ^ 40 ≤ T ^ 2 := by
    calc (1 / 2 ^ 40 : ℚ) = (1 / 2 ^ 20) ^ 2 := by norm_num
      _ ≤ T ^ 2 := by gcongr
  rw [h.count] at h1 h3 h4
  have hup := varOf_le xs h.mem
  generalize varianceF r.batchSum r.batchSum2 _ = v at *
  generalize (xs.length : ℚ) = k at *
  have hkk : (k + 2) ^ 2 ≤ 9 * k ^ 2 := by nlinarith
  have herr : (k + 2) ^ 2 / 2 ^ 50 ≤ k ^ 2 * T ^ 2 / 100 := by
    have : k ^ 2 * (1 / 2 ^ 40) ≤ k ^ 2 * T ^ 2 := mul_le_mul_of_nonneg_left hTT (by positivity)
    norm_num at this ⊢
    linarith
  refine ⟨d, h1, fun hd => ?_, fun hk3 => ?_⟩
  · push Not at hd
    have h5 : T ^ 2 * k ^ 2 ≤ (d * k) ^ 2 := by
      rw [mul_pow]
      gcongr
    have := (abs_le.1 hvar).2
    have h6 : 0 ≤ T ^ 2 * k ^ 2 := by positivity
    norm_num at h3 this herr
    linarith
  · by_contra hd
    push Not at hd
    have h5 : T ^ 2 * k ^ 2 ≤ (d * k) ^ 2 := by
      rw [mul_pow]
      gcongr
    have h6 := (abs_le.1 hvar).2
    have h7 : 0 < T ^ 2 * k ^ 2 := by positivity
    have h8 : k ≤ 3 * T ^ 2 * k * k := by
      rw [div_lt_iff₀ (by positivity)] at hk3
      nlinarith
    have he : eps ≤ 1 / 1000 * k := by
      have : eps ≤ 1 / 1000 := by unfold eps; norm_num
      linarith
    norm_num at h3 h6 herr hup
    nlinarith

end Pokers
