import Verif.Spec.Chance
import Mathlib.Data.ENNReal.Inv
import Mathlib.Data.Set.Finite.Basic
/-!
Expected values of computations that draw random values.
-/
namespace Pokers

open Spec
open scoped ENNReal

variable {α β : Type}

/-- A computation that draws nothing. -/
def retD (a : α) : Draws → Out α := fun ds => .ok a ds

/-- One computation after another. -/
def bindD (f : Draws → Out α) (g : α → Draws → Out β) : Draws → Out β := fun ds =>
  match f ds with
  | .ok a rest => g a rest
  | .more => .more
  | .panic => .panic

/-- A computation reads the values in order, and nothing else matters. -/
def Reads (f : Draws → Out α) : Prop := ∀ ds a rest, f ds = .ok a rest → ∃ p, ds = p ++ rest ∧ ∀ r, f (p ++ r) = .ok a r

/-- A computation can end. -/
def CanEnd (f : Draws → Out α) : Prop := ∃ q a, f q = .ok a []

theorem CanEnd.ret (a : α) : CanEnd (retD a) := ⟨[], a, rfl⟩

theorem Reads.ret (a : α) : Reads (retD a) := by
  intro ds a' rest h
  injection h with h1 h2
  subst h1 h2
  exact ⟨[], rfl, fun r => rfl⟩

theorem Reads.of_nil {f : Draws → Out α} (h : Reads f) {a : α} {rest : Draws} (h0 : f [] = .ok a rest) : f = retD a := by
  obtain ⟨p, h1, h2⟩ := h _ _ _ h0
  obtain ⟨rfl, rfl⟩ := List.append_eq_nil_iff.1 h1.symm
  funext r
  exact h2 r

theorem Reads.cons {f : Draws → Out α} (h : Reads f) (h0 : ∀ a rest, f [] ≠ .ok a rest) (x : Nat) : Reads fun r => f (x :: r) := by
  intro ds a rest e
  obtain ⟨p, h1, h2⟩ := h _ _ _ e
  cases p with
  | nil => exact absurd (h2 []) (h0 a [])
  | cons y p =>
    injection h1 with h1 h3
    subst h1
    exact ⟨p, h3, h2⟩

theorem bindD_ret (a : α) (g : α → Draws → Out β) : bindD (retD a) g = g a := rfl

theorem bindD_cons (f : Draws → Out α) (g : α → Draws → Out β) (x : Nat) : (fun r => bindD f g (x :: r)) = bindD (fun r => f (x :: r)) g := rfl

theorem bindD_ok {f : Draws → Out α} {g : α → Draws → Out β} {ds rest : Draws} {b : β} (h : bindD f g ds = .ok b rest) :
    ∃ a r, f ds = .ok a r ∧ g a r = .ok b rest := by
  unfold bindD at h
  split at h
  · exact ⟨_, _, by assumption, h⟩
  · cases h
  · cases h

theorem bindD_of {f : Draws → Out α} {g : α → Draws → Out β} {ds r : Draws} {a : α} (h : f ds = .ok a r) : bindD f g ds = g a r := by
  unfold bindD; rw [h]

theorem Reads.bind {f : Draws → Out α} {g : α → Draws → Out β} (hf : Reads f) (hg : ∀ q a r, f q = .ok a r → Reads (g a)) : Reads (bindD f g) := by
  intro ds b rest h
  obtain ⟨a, r, h1, h2⟩ := bindD_ok h
  obtain ⟨p, rfl, h3⟩ := hf _ _ _ h1
  obtain ⟨p', rfl, h4⟩ := hg _ _ _ h1 _ _ _ h2
  refine ⟨p ++ p', by rw [List.append_assoc], fun r => ?_⟩
  rw [List.append_assoc, bindD_of (h3 _), h4]

theorem CanEnd.bind {f : Draws → Out α} {g : α → Draws → Out β} (hr : Reads f) (hf : CanEnd f) (hg : ∀ q a, f q = .ok a [] → CanEnd (g a)) : CanEnd (bindD f g) := by
  obtain ⟨q, a, h⟩ := hf
  obtain ⟨q', b, h'⟩ := hg q a h
  obtain ⟨p, h1, h2⟩ := hr _ _ _ h
  rw [List.append_nil] at h1
  subst h1
  exact ⟨q ++ q', b, by rw [bindD_of (h2 _), h']⟩

theorem firstDraws_bind {f : Draws → Out α} {g : α → Draws → Out β} (hf : Reads f) (hg : ∀ q a, f q = .ok a [] → CanEnd (g a))
    (h0 : ∀ a rest, f [] ≠ .ok a rest) : firstDraws (bindD f g) = firstDraws f := by
  ext x
  constructor
  · rintro ⟨q, b, h⟩
    obtain ⟨a, r, h1, h2⟩ := bindD_ok h
    obtain ⟨p, h3, h4⟩ := hf _ _ _ h1
    cases p with
    | nil => exact absurd (h4 []) (h0 a [])
    | cons y p =>
      injection h3 with h3 h5
      subst h3
      exact ⟨p, a, by simpa using h4 []⟩
  · rintro ⟨q, a, h⟩
    obtain ⟨q', b, h'⟩ := hg _ _ h
    obtain ⟨p, h1, h2⟩ := hf _ _ _ h
    rw [List.append_nil] at h1
    refine ⟨q ++ q', b, ?_⟩
    rw [← List.cons_append, h1, bindD_of (h2 _), h']

/-- The probabilities of draws are multiplied. -/
theorem chance_bind : ∀ (p : Draws) {f : Draws → Out α} {g : α → Draws → Out β} {a : α}, Reads f → (∀ q a, f q = .ok a [] → CanEnd (g a)) →
    f p = .ok a [] → ∀ q, chance (bindD f g) (p ++ q) = chance f p * chance (g a) q
  | [], f, g, a, hf, hg, h, q => by
    rw [hf.of_nil h, bindD_ret, List.nil_append, chance, one_mul]
  | x :: p, f, g, a, hf, hg, h, q => by
    have h0 : ∀ a' rest, f [] ≠ .ok a' rest := by
      intro a' rest e
      rw [hf.of_nil e] at h
      cases h
    rw [List.cons_append, chance, chance, firstDraws_bind hf hg h0, bindD_cons,
      chance_bind p (hf.cons h0 x) (fun q a h => hg _ _ h) h q, mul_assoc]

theorem expect_ret (a : α) (φ : α → ℝ≥0∞) : expect (retD a) φ = φ a := by
  unfold expect
  rw [tsum_eq_single []]
  · unfold contribution retD
    simp [chance]
  · intro ds hds
    unfold contribution retD
    cases ds with
    | nil => exact absurd rfl hds
    | cons x ds => rfl

theorem contribution_of {f : Draws → Out α} (φ : α → ℝ≥0∞) {ds : Draws} {a : α} (h : f ds = .ok a []) : contribution f φ ds = chance f ds * φ a := by
  unfold contribution; rw [h]

theorem contribution_not {f : Draws → Out α} (φ : α → ℝ≥0∞) {ds : Draws} (h : ∀ a, f ds ≠ .ok a []) : contribution f φ ds = 0 := by
  unfold contribution
  split
  · exact absurd (by assumption) (h _)
  · rfl

/-- The expected value of one computation after another. -/
theorem expect_bind {f : Draws → Out α} {g : α → Draws → Out β} (hf : Reads f) (hg : ∀ q a, f q = .ok a [] → CanEnd (g a)) (φ : β → ℝ≥0∞) :
    expect (bindD f g) φ = expect f fun a => expect (g a) φ := by
  classical
  -- both sides as a sum over pairs of lists
  have hR : (expect f fun a => expect (g a) φ) = ∑' p, ∑' q, contribution f (fun a => contribution (g a) φ q) p := by
    unfold expect
    refine tsum_congr fun p => ?_
    by_cases h : ∃ a, f p = .ok a []
    · obtain ⟨a, h⟩ := h
      simp only [contribution_of _ h]
      rw [ENNReal.tsum_mul_left]
    · push Not at h
      simp only [contribution_not _ h, tsum_zero]
  have hL : expect (bindD f g) φ = ∑' ds, ∑' p, ∑' q, if p ++ q = ds then contribution f (fun a => contribution (g a) φ q) p else 0 := by
    unfold expect
    refine tsum_congr fun ds => ?_
    by_cases h : ∃ b, bindD f g ds = .ok b []
    · obtain ⟨b, h⟩ := h
      obtain ⟨a, r, h1, h2⟩ := bindD_ok h
      obtain ⟨p, rfl, h3⟩ := hf _ _ _ h1
      have h4 : f p = .ok a [] := by simpa using h3 []
      rw [tsum_eq_single p, tsum_eq_single r]
      · rw [if_pos rfl, contribution_of _ h, contribution_of _ h4, contribution_of _ h2, chance_bind p hf hg h4, mul_assoc]
      · intro q hq
        rw [if_neg]
        intro e
        exact hq (List.append_cancel_left e)
      · intro p' hp'
        rw [ENNReal.tsum_eq_zero]
        intro q
        split_ifs with e
        · apply contribution_not
          intro a' h'
          obtain ⟨p'', h5, h6⟩ := hf _ _ _ h'
          rw [List.append_nil] at h5
          subst h5
          have := h6 q
          rw [e, h1] at this
          injection this with _ this
          subst this
          exact hp' (List.append_cancel_right e)
        · rfl
    · push Not at h
      rw [contribution_not _ h]
      symm
      rw [ENNReal.tsum_eq_zero]
      intro p
      rw [ENNReal.tsum_eq_zero]
      intro q
      split_ifs with e
      · by_cases h1 : ∃ a, f p = .ok a []
        · obtain ⟨a, h1⟩ := h1
          rw [contribution_of _ h1, contribution_not, mul_zero]
          intro b h2
          obtain ⟨p', h5, h6⟩ := hf _ _ _ h1
          rw [List.append_nil] at h5
          subst h5
          refine h b ?_
          rw [← e, bindD_of (h6 _), h2]
        · push Not at h1
          exact contribution_not _ h1
      · rfl
  rw [hL, hR, ENNReal.tsum_comm]
  refine tsum_congr fun p => ?_
  rw [ENNReal.tsum_comm]
  refine tsum_congr fun q => ?_
  rw [tsum_eq_single (p ++ q)]
  · rw [if_pos rfl]
  · intro ds hds
    rw [if_neg (Ne.symm hds)]

/-- Only the results that occur matter. -/
theorem expect_congr {f : Draws → Out α} {φ χ : α → ℝ≥0∞} (h : ∀ q a, f q = .ok a [] → φ a = χ a) : expect f φ = expect f χ := by
  unfold expect
  refine tsum_congr fun ds => ?_
  by_cases h1 : ∃ a, f ds = .ok a []
  · obtain ⟨a, h1⟩ := h1
    rw [contribution_of _ h1, contribution_of _ h1, h _ _ h1]
  · push Not at h1
    rw [contribution_not _ h1, contribution_not _ h1]

/-- The first draw. -/
theorem expect_first {f : Draws → Out α} (h0 : ∀ a, f [] ≠ .ok a []) {S : Finset Nat} (hS : firstDraws f = ↑S) (φ : α → ℝ≥0∞) :
    expect f φ = (S.card : ℝ≥0∞)⁻¹ * ∑ x ∈ S, expect (fun r => f (x :: r)) φ := by
  have hc : ∀ x ds, contribution f φ (x :: ds) = (S.card : ℝ≥0∞)⁻¹ * contribution (fun r => f (x :: r)) φ ds := by
    intro x ds
    by_cases h : ∃ a, f (x :: ds) = .ok a []
    · obtain ⟨a, h⟩ := h
      rw [contribution_of _ h, contribution_of (f := fun r => f (x :: r)) _ h, chance, hS, Set.encard_coe_eq_coe_finsetCard, mul_assoc]
      rfl
    · push Not at h
      rw [contribution_not _ h, contribution_not (f := fun r => f (x :: r)) _ h, mul_zero]
  unfold expect
  have : ∑' ds, contribution f φ ds = ∑' (x : Nat) (ds : Draws), contribution f φ (x :: ds) := by
    let e : Nat × Draws → Draws := fun p => p.1 :: p.2
    have he : Function.Injective e := by
      rintro ⟨a, b⟩ ⟨c, d⟩ h
      injection h with h1 h2
      exact Prod.ext h1 h2
    rw [← ENNReal.tsum_prod, ← he.tsum_eq]
    intro ds hds
    cases ds with
    | nil => exact absurd (contribution_not _ h0) hds
    | cons x ds => exact ⟨(x, ds), rfl⟩
  rw [this]
  simp only [hc, ENNReal.tsum_mul_left]
  congr 1
  refine tsum_eq_sum (s := S) fun x hx => ?_
  rw [ENNReal.tsum_eq_zero]
  intro ds
  apply contribution_not
  intro a h
  apply hx
  have : x ∈ firstDraws f := ⟨ds, a, h⟩
  rw [hS] at this
  exact this

theorem expect_add (f : Draws → Out α) (φ χ : α → ℝ≥0∞) : expect f (fun a => φ a + χ a) = expect f φ + expect f χ := by
  unfold expect
  rw [← ENNReal.tsum_add]
  refine tsum_congr fun ds => ?_
  by_cases h : ∃ a, f ds = .ok a []
  · obtain ⟨a, h⟩ := h
    simp only [contribution_of _ h, mul_add]
  · push Not at h
    simp only [contribution_not _ h, add_zero]

theorem expect_mul (f : Draws → Out α) (c : ℝ≥0∞) (φ : α → ℝ≥0∞) : expect f (fun a => c * φ a) = c * expect f φ := by
  unfold expect
  rw [← ENNReal.tsum_mul_left]
  refine tsum_congr fun ds => ?_
  by_cases h : ∃ a, f ds = .ok a []
  · obtain ⟨a, h⟩ := h
    simp only [contribution_of _ h]
    ring
  · push Not at h
    simp only [contribution_not _ h, mul_zero]

/-! ## A value below `n` -/

theorem sample_reads (n : Nat) : Reads (sample n) := by
  intro ds a rest h
  cases ds with
  | nil => cases h
  | cons x ds =>
    rw [sample] at h
    split_ifs at h with hx
    injection h with h1 h2
    subst h1 h2
    refine ⟨[x], rfl, fun r => ?_⟩
    show sample n (x :: r) = _
    rw [sample, if_pos hx]

theorem sample_first (n : Nat) : firstDraws (sample n) = ↑(Finset.range n) := by
  ext x
  rw [Finset.coe_range, Set.mem_Iio]
  constructor
  · rintro ⟨q, a, h⟩
    rw [sample] at h
    split_ifs at h with hx
    exact hx
  · intro hx
    exact ⟨[], x, by rw [sample, if_pos hx]⟩

theorem sample_ends {n : Nat} (h : 0 < n) : CanEnd (sample n) := ⟨[0], 0, by rw [sample, if_pos h]⟩

theorem expect_sample (n : Nat) (φ : Nat → ℝ≥0∞) : expect (sample n) φ = (n : ℝ≥0∞)⁻¹ * ∑ x ∈ Finset.range n, φ x := by
  rw [expect_first (by intro a h; cases h) (sample_first n), Finset.card_range]
  congr 1
  refine Finset.sum_congr rfl fun x hx => ?_
  have : (fun r => sample n (x :: r)) = retD x := by
    funext r
    rw [sample, if_pos (Finset.mem_range.1 hx)]
    rfl
  rw [this, expect_ret]

end Pokers
