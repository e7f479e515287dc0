import Mathlib.Probability.Moments.SubGaussian
import Mathlib.Analysis.Convex.SpecificFunctions.Basic
import Verif.Props.Accuracy
/-!
Hoeffding's inequality for lists of showdowns whose boards are drawn independently.
-/

namespace Pokers

open Spec
open MeasureTheory ProbabilityTheory Real

/-- Hoeffding's lemma for an event of probability `m`. -/
theorem two_point {m : ℝ} (h0 : 0 ≤ m) (h1 : m ≤ 1) (s : ℝ) : (1 - m) * exp (s * (0 - m)) + m * exp (s * (1 - m)) ≤ exp (s ^ 2 / 8) := by
  let μ : Measure ℝ := ENNReal.ofReal (1 - m) • Measure.dirac 0 + ENNReal.ofReal m • Measure.dirac 1
  have hμ : IsProbabilityMeasure μ := ⟨by
    simp only [μ, Measure.add_apply, Measure.smul_apply, measure_univ, smul_eq_mul, mul_one]
    rw [← ENNReal.ofReal_add (by linarith) h0, sub_add_cancel, ENNReal.ofReal_one]⟩
  have hint : ∀ f : ℝ → ℝ, Measurable f → ∫ x, f x ∂μ = (1 - m) * f 0 + m * f 1 := fun f hf => by
    have hi : ∀ a : ℝ, Integrable f (Measure.dirac a) := fun a => integrable_dirac (by simp)
    rw [integral_add_measure ((hi 0).smul_measure (by simp)) ((hi 1).smul_measure (by simp)), integral_smul_measure, integral_smul_measure,
      integral_dirac, integral_dirac, ENNReal.toReal_ofReal (by linarith), ENNReal.toReal_ofReal h0, smul_eq_mul, smul_eq_mul]
  have hm : ∫ x, id x ∂μ = m := by rw [hint _ measurable_id]; simp
  have key := (hasSubgaussianMGF_of_mem_Icc (μ := μ) (X := id) (a := 0) (b := 1) aemeasurable_id (by
    simp only [μ]
    rw [ae_add_measure_iff]
    constructor
    · refine Measure.ae_smul_measure ?_ _
      rw [ae_dirac_eq]; simp
    · refine Measure.ae_smul_measure ?_ _
      rw [ae_dirac_eq]; simp)).mgf_le s
  rw [hm] at key
  unfold mgf at key
  rw [hint (fun x => exp (s * (id x - m))) (by fun_prop)] at key
  refine key.trans (le_of_eq ?_)
  congr 1
  simp
  ring

variable {α : Type}

theorem exp_chord {x : ℝ} (h0 : 0 ≤ x) (h1 : x ≤ 1) (a b : ℝ) : exp (a + x * b) ≤ (1 - x) * exp a + x * exp (a + b) := by
  have := convexOn_exp.2 (Set.mem_univ a) (Set.mem_univ (a + b)) (sub_nonneg.2 h1) h0 (by ring)
  simp only [smul_eq_mul] at this
  rwa [show (1 - x) * a + x * (a + b) = a + x * b by ring] at this

theorem sum_one_sub (l : List α) (g : α → ℝ) : (l.map fun x => 1 - g x).sum = l.length - (l.map g).sum := by
  induction l with
  | nil => simp
  | cons x l ih =>
    rw [List.map_cons, List.sum_cons, ih, List.map_cons, List.sum_cons, List.length_cons]
    push_cast
    ring

/-- Hoeffding's lemma for a value between 0 and 1. -/
theorem exp_sum_le {l : List α} (h : l ≠ []) {f : α → ℚ} (hf : ∀ x ∈ l, 0 ≤ f x ∧ f x ≤ 1) (s : ℝ) :
    (l.map fun x => exp (s * ((f x : ℝ) - (Spec.mean l f : ℚ)))).sum ≤ l.length * exp (s ^ 2 / 8) := by
  have hl : (0 : ℝ) < l.length := by exact_mod_cast List.length_pos_iff.2 h
  have hm0 : (0 : ℝ) ≤ (Spec.mean l f : ℚ) := by exact_mod_cast mean_nonneg fun x hx => (hf x hx).1
  have hm1 : ((Spec.mean l f : ℚ) : ℝ) ≤ 1 := by
    have := (mean_le fun x hx => (hf x hx).2 : Spec.mean l f ≤ Spec.mean l fun _ => 1)
    rw [mean_const h] at this
    exact_mod_cast this
  have hsum : (l.map fun x => (f x : ℝ)).sum = l.length * (Spec.mean l f : ℚ) := by
    unfold Spec.mean
    push_cast
    rw [mul_div_cancel₀ _ hl.ne', List.map_map]
    rfl
  generalize ((Spec.mean l f : ℚ) : ℝ) = m at *
  calc (l.map fun x => exp (s * ((f x : ℝ) - m))).sum
      ≤ (l.map fun x => (1 - (f x : ℝ)) * exp (s * (0 - m)) + (f x : ℝ) * exp (s * (1 - m))).sum := by
        refine List.sum_le_sum fun x hx => ?_
        have := exp_chord (x := f x) (by exact_mod_cast (hf x hx).1) (by exact_mod_cast (hf x hx).2) (s * (0 - m)) s
        rw [show s * (0 - m) + (f x : ℝ) * s = s * ((f x : ℝ) - m) by ring, show s * (0 - m) + s = s * (1 - m) by ring] at this
        exact this
    _ = l.length * ((1 - m) * exp (s * (0 - m)) + m * exp (s * (1 - m))) := by
        rw [List.sum_map_add, List.sum_map_mul_right, List.sum_map_mul_right, hsum]
        rw [sum_one_sub, hsum]
        ring
    _ ≤ _ := by
        have := two_point hm0 hm1 s
        exact mul_le_mul_of_nonneg_left this hl.le

/-- The mean of an exponential over independent choices. -/
theorem exp_choices (ls : List (List α)) (g : α → ℝ) :
    ((choices ls).map fun c => exp (c.map g).sum).sum = (ls.map fun l => (l.map fun x => exp (g x)).sum).prod := by
  induction ls with
  | nil => simp [choices]
  | cons l ls ih =>
    rw [choices, List.map_cons, List.prod_cons, ← ih]
    clear ih
    induction l with
    | nil => simp
    | cons x l ih =>
      rw [List.flatMap_cons, List.map_append, List.sum_append, ih, List.map_cons, List.sum_cons, add_mul, List.map_map]
      congr 1
      rw [← List.sum_map_mul_left]
      congr 1
      refine List.map_congr_left fun c _ => ?_
      simp [Real.exp_add]

/-- Markov's inequality for exponentials. -/
theorem exp_markov (l : List α) (Y : α → ℝ) {V t : ℝ} (hV : 0 < V)
    (h : ∀ s : ℝ, (l.map fun x => exp (s * Y x)).sum ≤ l.length * exp (s ^ 2 * V / 8)) (ht : 0 ≤ t) (P : α → Bool) (hP : ∀ x ∈ l, P x = true → t ≤ Y x) :
    (l.countP P : ℝ) ≤ l.length * exp (-(2 * t ^ 2 / V)) := by
  have hs : 0 ≤ 4 * t / V := by positivity
  have h1 : (l.countP P : ℝ) * exp (4 * t / V * t) ≤ (l.map fun x => exp (4 * t / V * Y x)).sum := by
    clear h
    induction l with
    | nil => simp
    | cons x l ih =>
      have ih := ih fun y hy => hP y (by simp [hy])
      rw [List.map_cons, List.sum_cons, List.countP_cons]
      by_cases hx : P x = true
      · have := exp_le_exp.2 (mul_le_mul_of_nonneg_left (hP x (by simp) hx) hs)
        rw [if_pos hx]
        push_cast
        linarith
      · have := exp_pos (4 * t / V * Y x)
        rw [if_neg hx]
        push_cast
        linarith
  have h2 := h1.trans (h (4 * t / V))
  have h3 : exp ((4 * t / V) ^ 2 * V / 8) = exp (-(2 * t ^ 2 / V)) * exp (4 * t / V * t) := by
    rw [← exp_add]
    congr 1
    field_simp
    ring
  rw [h3, ← mul_assoc] at h2
  exact le_of_mul_le_mul_right h2 (exp_pos _)

theorem countP_le_add {l : List α} {P Q R : α → Bool} (h : ∀ x ∈ l, P x = true → Q x = true ∨ R x = true) : l.countP P ≤ l.countP Q + l.countP R := by
  induction l with
  | nil => simp
  | cons x l ih =>
    have ih := ih fun y hy => h y (by simp [hy])
    have := h x (by simp)
    rw [List.countP_cons, List.countP_cons, List.countP_cons]
    by_cases h1 : P x = true
    · rcases this h1 with h2 | h2 <;> rw [if_pos h1, if_pos h2] <;> omega
    · rw [if_neg h1]; omega

variable {board dead : List Nat} {ds : List (List WHand)} {p : Nat}

theorem outcomes_exp (h : ∀ dd ∈ ds, boards board dead dd ≠ []) (s : ℝ) :
    ((outcomes board dead ds).map fun sd =>
        exp (s * (sd.map fun x => (Spec.dealWeight x.1 : ℝ) * ((potShare p x : ℝ) - (dealEquity board dead p x.1 : ℚ))).sum)).sum ≤
      (outcomes board dead ds).length * exp (s ^ 2 * ((ds.map fun dd => (Spec.dealWeight dd : ℝ) ^ 2).sum) / 8) := by
  have h1 : ∀ sd : List (List WHand × List Nat),
      s * (sd.map fun x => (Spec.dealWeight x.1 : ℝ) * ((potShare p x : ℝ) - (dealEquity board dead p x.1 : ℚ))).sum =
        (sd.map fun x => s * ((Spec.dealWeight x.1 : ℝ) * ((potShare p x : ℝ) - (dealEquity board dead p x.1 : ℚ)))).sum := fun sd => by
    rw [List.sum_map_mul_left]
  simp only [h1]
  unfold outcomes
  rw [exp_choices, choices_length]
  clear h1
  induction ds with
  | nil => simp
  | cons dd ds ih =>
    have ih := ih fun x hx => h x (by simp [hx])
    have h2 := exp_sum_le (h dd (by simp)) (f := fun B => potShare p (dd, B)) (fun B _ => potShare_range p (dd, B)) (s * Spec.dealWeight dd)
    simp only [List.map_cons, List.prod_cons, List.sum_cons, List.length_map, List.map_map] at ih ⊢
    rw [show s ^ 2 * ((Spec.dealWeight dd : ℝ) ^ 2 + (ds.map fun dd => (Spec.dealWeight dd : ℝ) ^ 2).sum) / 8 =
      (s * Spec.dealWeight dd) ^ 2 / 8 + s ^ 2 * (ds.map fun dd => (Spec.dealWeight dd : ℝ) ^ 2).sum / 8 by ring, exp_add]
    rw [Nat.cast_mul]
    have h3 : (List.map ((fun x : List WHand × List Nat => exp (s * ((Spec.dealWeight x.1 : ℝ) * ((potShare p x : ℝ) - (dealEquity board dead p x.1 : ℚ))))) ∘
        fun B => (dd, B)) (boards board dead dd)).sum ≤ ((boards board dead dd).length : ℝ) * exp ((s * Spec.dealWeight dd) ^ 2 / 8) := by
      refine le_trans (le_of_eq ?_) h2
      congr 1
      refine List.map_congr_left fun B _ => ?_
      simp only [Function.comp, dealEquity, mul_assoc]
    refine le_trans (mul_le_mul h3 ih ?_ (by positivity)) (le_of_eq (by ring))
    refine List.prod_nonneg fun a ha => ?_
    obtain ⟨x, _, rfl⟩ := List.mem_map.1 ha
    exact List.sum_nonneg fun y hy => by
      obtain ⟨z, _, rfl⟩ := List.mem_map.1 hy
      exact (exp_pos _).le

theorem outcomes_gap (h : ∀ dd ∈ ds, boards board dead dd ≠ []) (h0 : 0 < (ds.map Spec.dealWeight).sum) {sd : List (List WHand × List Nat)}
    (hsd : sd ∈ outcomes board dead ds) :
    (sd.map fun x => (Spec.dealWeight x.1 : ℝ) * ((potShare p x : ℝ) - (dealEquity board dead p x.1 : ℚ))).sum =
      ((ds.map Spec.dealWeight).sum : Nat) * ((equityIn sd p - Spec.mean (outcomes board dead ds) fun sd => equityIn sd p : ℚ) : ℝ) := by
  have hW : ((ds.map Spec.dealWeight).sum : ℚ) ≠ 0 := by exact_mod_cast h0.ne'
  have key : (sd.map fun x => (Spec.dealWeight x.1 : ℚ) * (potShare p x - dealEquity board dead p x.1)).sum =
      ((ds.map Spec.dealWeight).sum : Nat) * (equityIn sd p - Spec.mean (outcomes board dead ds) fun sd => equityIn sd p) := by
    rw [outcomes_mean h]
    unfold equityIn
    rw [outcomes_weight hsd, ← sub_div, mul_div_cancel₀ _ hW, ← (mem_outcomes.1 hsd).1]
    clear hsd
    induction sd with
    | nil => simp
    | cons x sd ih =>
      simp only [List.map_cons, List.sum_cons, List.map_map] at ih ⊢
      rw [ih, winning_eq]
      ring
  rw [← Rat.cast_natCast, ← Rat.cast_mul, ← key, Rat.cast_list_sum, List.map_map]
  congr 1
  refine List.map_congr_left fun x _ => ?_
  simp

/-- Hoeffding's inequality: the equity over boards drawn independently is hardly ever far from its mean. -/
theorem outcomes_tail (h : ∀ dd ∈ ds, boards board dead dd ≠ []) (h0 : 0 < (ds.map Spec.dealWeight).sum) {ε : ℝ} (hε : 0 ≤ ε)
    {P : List (List WHand × List Nat) → Bool}
    (hP : ∀ sd ∈ outcomes board dead ds, P sd = true → ε ≤ |((equityIn sd p - Spec.mean (outcomes board dead ds) fun sd => equityIn sd p : ℚ) : ℝ)|) :
    ((outcomes board dead ds).countP P : ℝ) ≤
      (outcomes board dead ds).length * (2 * exp (-(2 * ε ^ 2 * ((ds.map Spec.dealWeight).sum : ℝ) ^ 2 / (ds.map fun dd => (Spec.dealWeight dd : ℝ) ^ 2).sum))) := by
  have hW : (0 : ℝ) < (ds.map Spec.dealWeight).sum := by exact_mod_cast h0
  have hV : 0 < (ds.map fun dd => (Spec.dealWeight dd : ℝ) ^ 2).sum := by
    obtain ⟨dd, hdd, hw0⟩ : ∃ dd ∈ ds, 0 < Spec.dealWeight dd := by
      by_contra hno
      push Not at hno
      refine h0.ne' (List.sum_eq_zero fun x hx => ?_)
      obtain ⟨y, hy, rfl⟩ := List.mem_map.1 hx
      have := hno y hy
      omega
    have := List.single_le_sum (l := ds.map fun dd => (Spec.dealWeight dd : ℝ) ^ 2) (fun x hx => by
      obtain ⟨y, _, rfl⟩ := List.mem_map.1 hx
      positivity) _ (List.mem_map_of_mem hdd)
    refine lt_of_lt_of_le ?_ this
    have : (0 : ℝ) < Spec.dealWeight dd := by exact_mod_cast hw0
    positivity
  have hgap := fun sd (hsd : sd ∈ outcomes board dead ds) => outcomes_gap (p := p) h h0 hsd
  have hexp := outcomes_exp (p := p) h
  have hle : (outcomes board dead ds).countP P ≤
      (outcomes board dead ds).countP (fun sd => decide (((ds.map Spec.dealWeight).sum : ℝ) * ε ≤
        (sd.map fun x => (Spec.dealWeight x.1 : ℝ) * ((potShare p x : ℝ) - (dealEquity board dead p x.1 : ℚ))).sum)) +
      (outcomes board dead ds).countP (fun sd => decide (((ds.map Spec.dealWeight).sum : ℝ) * ε ≤
        -(sd.map fun x => (Spec.dealWeight x.1 : ℝ) * ((potShare p x : ℝ) - (dealEquity board dead p x.1 : ℚ))).sum)) := by
    refine countP_le_add fun sd hsd hp => ?_
    have := hP sd hsd hp
    rw [decide_eq_true_iff, decide_eq_true_iff, hgap sd hsd, ← mul_neg]
    rcases le_abs.1 this with h' | h'
    · exact .inl (mul_le_mul_of_nonneg_left h' hW.le)
    · exact .inr (mul_le_mul_of_nonneg_left h' hW.le)
  have k1 := exp_markov (outcomes board dead ds)
    (fun sd => (sd.map fun x => (Spec.dealWeight x.1 : ℝ) * ((potShare p x : ℝ) - (dealEquity board dead p x.1 : ℚ))).sum) hV hexp
    (t := (ds.map Spec.dealWeight).sum * ε) (by positivity) _ fun sd _ hsd => of_decide_eq_true hsd
  have k2 := exp_markov (outcomes board dead ds)
    (fun sd => -(sd.map fun x => (Spec.dealWeight x.1 : ℝ) * ((potShare p x : ℝ) - (dealEquity board dead p x.1 : ℚ))).sum) hV
    (fun s => by
      have := hexp (-s)
      simpa only [neg_mul, mul_neg, neg_sq] using this)
    (t := (ds.map Spec.dealWeight).sum * ε) (by positivity) _ fun sd _ hsd => of_decide_eq_true hsd
  have hle' := (Nat.cast_le (α := ℝ)).2 hle
  rw [Nat.cast_add] at hle'
  rw [show 2 * (((ds.map Spec.dealWeight).sum : ℝ) * ε) ^ 2 = 2 * ε ^ 2 * ((ds.map Spec.dealWeight).sum : ℝ) ^ 2 by ring] at k1 k2
  linarith

end Pokers
