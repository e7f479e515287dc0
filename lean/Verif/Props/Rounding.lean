import Verif.Proofs.FloatMc
import Verif.Props.RepoTests
/-!
# Floating-point rounding (C63)

The other theorems about results treat the `f64` values as exact numbers.  Here they are rounded after every operation.
-/
namespace Pokers
open Spec CombinedRange
open Finset (range)

variable {ranges : List (List Combo)} {b d nT : Nat} {cancelled stopped : Bool} {r r' : Results} {sent sent' : List Nat} {sqrt : ℚ → ℚ}
  {ex : Bool} {s : Sim} {flag : Nat} {r0 : Results} {hist : List (Batch × HandStats)} {sd : Shows}

/-! ## The rounding function -/

theorem gridExp_mono {x y : ℚ} (h0 : 0 < x) (h : x ≤ y) : gridExp x ≤ gridExp y := by
  unfold gridExp
  rw [abs_of_pos h0, abs_of_pos (h0.trans_le h)]
  have := Int.log_mono_right (b := 2) h0 h
  omega

theorem on_grid {y : ℚ} (h : fl y = y) : ∃ k : ℤ, y = k * ulp y := ⟨_, h.symm⟩

theorem on_coarser_grid {x y : ℚ} (h : fl y = y) (hg : gridExp x ≤ gridExp y) : ∃ k : ℤ, y = k * ulp x := by
  obtain ⟨k, hk⟩ := on_grid h
  refine ⟨k * 2 ^ (gridExp y - gridExp x).toNat, ?_⟩
  have e : (2 : ℚ) ^ (gridExp y - gridExp x).toNat * ulp x = ulp y := by
    rw [ulp_eq, ulp_eq, ← zpow_natCast, Int.toNat_of_nonneg (by omega), ← zpow_add₀ (by norm_num)]
    congr 1
    omega
  push_cast
  rw [mul_assoc, e]
  exact hk

/-- C63: `fl x` is an `f64` number, and no `f64` number is nearer to `x`. -/
theorem C63_nearest {x : ℚ} (h0 : 0 ≤ x) : IsF64 (fl x) ∧ ∀ y, IsF64 y → |fl x - x| ≤ |y - x| := by
  refine ⟨fl_isF64 x, fun y hy => ?_⟩
  rcases h0.eq_or_lt with rfl | hpos
  · rw [fl_zero]; simp
  have hfy := fl_of_isF64 hy
  have hp := ulp_pos x
  have herr := abs_le.1 (fl_err x)
  by_contra hlt
  rw [not_le] at hlt
  have hgrid : ∃ m : ℤ, fl x = m * ulp x := ⟨_, rfl⟩
  obtain ⟨m, hm⟩ := hgrid
  -- a multiple of the grid cannot be strictly between two neighbours
  have gap : ∀ (k : ℤ), ¬ ((m : ℚ) * ulp x < k * ulp x ∧ (k : ℚ) * ulp x < (m + 1) * ulp x) := by
    rintro k ⟨h1, h2⟩
    have h1 := lt_of_mul_lt_mul_right h1 hp.le
    have h2 := lt_of_mul_lt_mul_right h2 hp.le
    have h1' : m < k := by exact_mod_cast h1
    have h2' : k < m + 1 := by exact_mod_cast h2
    omega
  have gap' : ∀ (k : ℤ), ¬ (((m : ℚ) - 1) * ulp x < k * ulp x ∧ (k : ℚ) * ulp x < m * ulp x) := by
    rintro k ⟨h1, h2⟩
    have h1 := lt_of_mul_lt_mul_right h1 hp.le
    have h2 := lt_of_mul_lt_mul_right h2 hp.le
    have h1' : m - 1 < k := by exact_mod_cast h1
    have h2' : k < m := by exact_mod_cast h2
    omega
  rcases le_total x y with hxy | hxy
  · -- `y` is not below `x`
    have hfx : fl x ≤ y := by have := fl_mono h0 hxy; rwa [hfy] at this
    rw [abs_of_nonneg (by linarith : (0 : ℚ) ≤ y - x)] at hlt
    rcases le_total x (fl x) with hx | hx
    · rw [abs_of_nonneg (by linarith : (0 : ℚ) ≤ fl x - x)] at hlt
      linarith
    · rw [abs_of_nonpos (by linarith : fl x - x ≤ 0)] at hlt
      obtain ⟨k, hk⟩ := on_coarser_grid hfy (gridExp_mono hpos hxy)
      refine gap k ⟨?_, ?_⟩ <;> rw [← hk]
      · rw [← hm]
        rcases hfx.lt_or_eq with h | h
        · exact h
        · rw [← h] at hlt hxy; linarith
      · rw [add_mul, ← hm]; linarith
  · have hy0 : y ≤ fl x ∨ y < 0 := by
      rcases le_total 0 y with h | h
      · left; have := fl_mono h hxy; rwa [hfy] at this
      · rcases h.lt_or_eq with h | h
        · exact Or.inr h
        · left; rw [h]; exact fl_nonneg h0
    rw [abs_of_nonpos (by linarith : y - x ≤ 0)] at hlt
    have hnn := fl_nonneg h0
    rcases le_total (fl x) x with hx | hx
    · rw [abs_of_nonpos (by linarith : fl x - x ≤ 0)] at hlt
      rcases hy0 with h | h <;> linarith
    · rw [abs_of_nonneg (by linarith : (0 : ℚ) ≤ fl x - x)] at hlt
      -- `y` is between the grid point below `x` and `x`
      have hlow : ((m : ℚ) - 1) * ulp x < y := by rw [sub_mul, ← hm]; linarith
      have hm1 : 1 ≤ m := by
        by_contra hlt'
        have : m ≤ 0 := by omega
        have : (m : ℚ) ≤ 0 := by exact_mod_cast this
        have : fl x ≤ 0 := by rw [hm]; exact mul_nonpos_of_nonpos_of_nonneg this hp.le
        linarith
      have hylt : y < m * ulp x := by
        rw [← hm]
        rcases hxy.lt_or_eq with h | h
        · linarith
        · rw [h] at hlt; linarith
      have hge : gridExp x ≤ gridExp y := by
        by_cases hsub : gridExp x = -1074
        · rw [hsub]; exact le_max_right _ _
        have hge : gridExp x = Int.log 2 |x| - 52 := by
          unfold gridExp at hsub ⊢
          omega
        have hlog := Int.zpow_log_le_self (b := 2) (by norm_num) (abs_pos.2 hpos.ne')
        rw [abs_of_pos hpos] at hge hlog
        push_cast at hlog
        have hbin : (2 : ℚ) ^ Int.log 2 x = (2 ^ 52 : ℤ) * ulp x := by
          have e : (((2 ^ 52 : ℤ) : ℤ) : ℚ) = (2 : ℚ) ^ (52 : ℤ) := by norm_num
          rw [ulp_eq, hge, e, ← zpow_add₀ (by norm_num)]
          congr 1
          ring
        have hm52 : (2 : ℤ) ^ 52 < m := by
          rw [hbin] at hlog
          have h1 : ((2 ^ 52 : ℤ) : ℚ) * ulp x ≤ m * ulp x := by rw [← hm]; linarith
          have h2 : (2 ^ 52 : ℤ) ≤ m := by exact_mod_cast le_of_mul_le_mul_right h1 hp
          rcases h2.lt_or_eq with h | h
          · exact h
          · exfalso
            rw [h, ← hm] at hlog
            linarith
        have hyb : (2 : ℚ) ^ Int.log 2 x ≤ y := by
          rw [hbin]
          refine le_trans ?_ hlow.le
          have : ((2 ^ 52 : ℤ) : ℚ) ≤ m - 1 := by exact_mod_cast (by omega : (2 : ℤ) ^ 52 ≤ m - 1)
          exact mul_le_mul_of_nonneg_right this hp.le
        have hypos : 0 < y := lt_of_lt_of_le (by positivity) hyb
        have : Int.log 2 x ≤ Int.log 2 y := by
          rw [← Int.zpow_le_iff_le_log (by norm_num) hypos]
          exact_mod_cast hyb
        rw [hge]
        unfold gridExp
        rw [abs_of_pos hypos]
        omega
      obtain ⟨k, hk⟩ := on_coarser_grid hfy hge
      exact gap' k ⟨by rw [← hk]; exact hlow, by rw [← hk]; exact hylt⟩

/-- C63: of two `f64` numbers at the same distance the one with the even significand is chosen. -/
theorem C63_even {x : ℚ} (h : |fl x - x| = ulp x / 2) : ∃ m : ℤ, fl x = m * ulp x ∧ m % 2 = 0 := by
  refine ⟨roundEven (x / ulp x), rfl, ?_⟩
  have hp := ulp_pos x
  have e : fl x - x = ((roundEven (x / ulp x) : ℚ) - x / ulp x) * ulp x := by
    unfold fl
    field_simp
  rw [e, abs_mul, abs_of_pos hp] at h
  have h : |(roundEven (x / ulp x) : ℚ) - x / ulp x| = 1 / 2 := by
    apply mul_right_cancel₀ hp.ne'
    rw [h]; ring
  generalize x / ulp x = z at h
  unfold roundEven at h ⊢
  simp only at h ⊢
  have h1 := Int.floor_le z
  have h2 := Int.lt_floor_add_one z
  split_ifs at h ⊢ with c1 c2 c3
  · rw [abs_of_nonpos (by linarith)] at h; linarith
  · push_cast at h; rw [abs_of_nonneg (by linarith)] at h; linarith
  · exact c3
  · omega

/-- Examples: `f64` has no `2 ^ 53 + 1`; the halfway cases go to the even neighbour; one third is below the exact value. -/
example : fl (2 ^ 53 + 1) = 2 ^ 53 ∧ fl (2 ^ 53 + 3) = 2 ^ 53 + 4 ∧ fl (1 / 3) = 6004799503160661 / 2 ^ 54 := by
  decide +kernel

/-- C63: what the bound `Rel k` says: a relative error of at most `k` times the distance of `1` from the next `f64` number. -/
theorem C63_error {k : Nat} (hk : k ≤ 2 ^ 52) {a f : ℚ} (ha : 0 ≤ a) (h : Rel k a f) : |f - a| ≤ k / 2 ^ 52 * a := by
  have hk' : (k : ℚ) ≤ 2 ^ 52 := by exact_mod_cast hk
  have hp := pow_pos lam_pos k
  have hb : 1 - (k : ℚ) / 2 ^ 53 ≤ (lam ^ k)⁻¹ := by
    have := one_add_mul_le_pow (a := -(1 / 2 ^ 53 : ℚ)) (by norm_num) k
    rw [← inv_pow]
    have e : (lam⁻¹ : ℚ) = 1 + -(1 / 2 ^ 53) := by unfold lam; norm_num
    rw [e]
    refine le_trans (le_of_eq ?_) this
    ring
  have hpos : (0 : ℚ) < 1 - (k : ℚ) / 2 ^ 53 := by
    have : (k : ℚ) / 2 ^ 53 ≤ 1 / 2 := by rw [div_le_iff₀ (by norm_num)]; linarith
    linarith
  have hl : lam ^ k ≤ 1 + (k : ℚ) / 2 ^ 52 := by
    have h1 : lam ^ k * (1 - (k : ℚ) / 2 ^ 53) ≤ 1 := by
      calc lam ^ k * (1 - (k : ℚ) / 2 ^ 53) ≤ lam ^ k * (lam ^ k)⁻¹ := mul_le_mul_of_nonneg_left hb hp.le
        _ = 1 := mul_inv_cancel₀ hp.ne'
    have h2 : 1 ≤ (1 + (k : ℚ) / 2 ^ 52) * (1 - (k : ℚ) / 2 ^ 53) := by
      have : (k : ℚ) / 2 ^ 52 = 2 * ((k : ℚ) / 2 ^ 53) := by ring
      rw [this]
      have h3 : (k : ℚ) / 2 ^ 53 ≤ 1 / 2 := by rw [div_le_iff₀ (by norm_num)]; linarith
      have h4 : 0 ≤ (k : ℚ) / 2 ^ 53 := by positivity
      nlinarith
    exact le_of_mul_le_mul_right (h1.trans h2) hpos
  rw [abs_le]
  constructor
  · have h1 : (lam ^ k)⁻¹ * a ≤ f := by
      rw [inv_mul_le_iff₀ hp]; exact h.1
    have h2 := mul_le_mul_of_nonneg_right hb ha
    have h3 : (k : ℚ) / 2 ^ 53 * a ≤ (k : ℚ) / 2 ^ 52 * a := by
      apply mul_le_mul_of_nonneg_right _ ha
      apply div_le_div_of_nonneg_left (by positivity) (by norm_num) (by norm_num)
    linarith
  · have := h.2.trans (mul_le_mul_of_nonneg_right hl ha)
    linarith

/-! ## The players -/

/-- The wins and ties of all players together are at most the counts of all masks together. -/
theorem Calc.pot_le (h : Calc sqrt ex ranges b d r s flag r0 hist sd) :
    ∑ q ∈ range ranges.length, ((r.wins q : ℚ) + r.ties q) ≤ ((∑ i ∈ range (2 ^ ranges.length), r.winsByMask i : Nat) : ℚ) := by
  have hn := h.players
  have h9 := h.few
  have hwins := h.counts.wins
  have hmasks := fun {i} => h.masks (i := i)
  have hties := fun {p} => h.ties (p := p)
  rw [hn] at hmasks hties
  generalize ranges.length = n at *
  have hone : ∀ q < n, (r.wins q : ℚ) + r.ties q ≤ ∑ i ∈ range (2 ^ n), if i.testBit q = true then (r.winsByMask i : ℚ) / (countOnes i : ℚ) else 0 := by
    intro q hq
    have h1 : r.wins q = ∑ i ∈ range (2 ^ n), maskWins { Batch.init n with winsByMask := r.winsByMask } q i := by
      rw [sum_maskWins _ hq (by omega), hwins q hq]
    have h2 := (share_bounds hist n (p := q) (by omega) r.winsByMask (fun i hi => hmasks hi)).1
    rw [hties hq, h1]
    push_cast
    refine (add_le_add le_rfl h2).trans (le_of_eq ?_)
    rw [← Finset.sum_add_distrib]
    refine Finset.sum_congr rfl fun i _ => ?_
    unfold maskWins
    by_cases hb : i.testBit q = true
    · by_cases hc : countOnes i = 1
      · simp [hb, hc]
      · simp [hb, hc]
    · simp [hb]
  calc ∑ q ∈ range n, ((r.wins q : ℚ) + r.ties q)
      ≤ ∑ q ∈ range n, ∑ i ∈ range (2 ^ n), (if i.testBit q = true then (r.winsByMask i : ℚ) / (countOnes i : ℚ) else 0) :=
        Finset.sum_le_sum fun q hq => hone q (Finset.mem_range.1 hq)
    _ = ∑ i ∈ range (2 ^ n), ∑ q ∈ range n, (if i.testBit q = true then (r.winsByMask i : ℚ) / (countOnes i : ℚ) else 0) := Finset.sum_comm
    _ ≤ ∑ i ∈ range (2 ^ n), (r.winsByMask i : ℚ) := by
        refine Finset.sum_le_sum fun i hi => ?_
        rw [← Finset.sum_filter, Finset.sum_const, nsmul_eq_mul]
        have hc : ((range n).filter fun q => i.testBit q = true).card = countOnes i := by
          rw [← maskPlayers_length (Finset.mem_range.1 hi) (by omega), maskPlayers, ← List.toFinset_card_of_nodup (List.nodup_range.filter _)]
          congr 1
          ext q
          simp
        rw [hc]
        by_cases h0 : countOnes i = 0
        · rw [h0]; simp
        · have : (countOnes i : ℚ) ≠ 0 := by exact_mod_cast h0
          rw [mul_div_cancel₀ _ this]
    _ = _ := by push_cast; rfl

/-- The results `r'` of the floating-point model belong to the results `r` of the exact model, for `n` players: the counters are the
same; the numbers of ties are the same up to `2 ^ 53`; the equities are those of the exact model rounded once if all the weight counted
is at most `2 ^ 53`, and off by at most `n + 4` roundings otherwise; for the records see `Published`. -/
structure Rounded (n : Nat) (r r' : Results) : Prop where
  wins : r'.wins = r.wins
  masks : r'.winsByMask = r.winsByMask
  evals : r'.evalCount = r.evalCount
  whole : ∀ p, ∃ m : Nat, r.ties p = m
  ties : ∀ p, r.ties p ≤ 2 ^ 53 → r'.ties p = r.ties p
  once : ∑ i ∈ range (2 ^ n), r.winsByMask i ≤ 2 ^ 53 → r'.equities = r.equities.map (Option.map fl)
  near : (∀ p < n, r.ties p ≤ 2 ^ 53) → ∑ i ∈ range (2 ^ n), r.winsByMask i < 2 ^ 128 → List.Forall₂ (OptRel (n + 4)) r.equities r'.equities
  hands : ∀ k, Published n (r.handResults k) (r'.handResults k)
  combos : List.Forall₂ (Published n) r.comboResults r'.comboResults
  boards : ∀ k, Published n (r.boardResults k) (r'.boardResults k)
  draws : ∀ k, Published n (r.boardDraws k) (r'.boardDraws k)

theorem OutClose.rounded {r' : Results} (h : OutClose ranges.length r r') (hc : Calc sqrt ex ranges b d r s flag r0 hist sd) :
    Rounded ranges.length r r' := by
  have hp := hc.pot_le
  have e : ((List.range ranges.length).map fun i => (r.wins i : ℚ) + r.ties i).sum = ∑ q ∈ range ranges.length, ((r.wins q : ℚ) + r.ties q) := by
    exact list_sum_range _ _
  refine ⟨h.wins, h.masks, h.evals, fun p => (h.ties p).whole, fun p hp => (h.ties p).exact hp, fun hle => h.exact ?_, fun h1 h2 => h.rel h1 ?_, h.hands, h.combos,
    h.boards, h.draws⟩
  · rw [e]
    exact hp.trans (by exact_mod_cast hle)
  · rw [e]
    exact hp.trans_lt (by exact_mod_cast h2)

/-- C63: every result of the exact calculation with floating-point numbers belongs to a result of the exact model. -/
theorem C63_exact_mode (hwf : ∀ r ∈ ranges, WfRange r) (hb : CardMask b) (hd : CardMask d) {r' : Results} {sent' : List Nat}
    (h : ExactEquityF ranges b d nT cancelled stopped (.ok r') sent') :
    ∃ r sent, ExactEquity ranges b d nT cancelled stopped (.ok r) sent ∧ Rounded ranges.length r r' := by
  obtain ⟨r, sent, total, h1, h2, _⟩ := exactF_follows hwf hb hd h
  obtain ⟨s, ds, total, size, flag, r0, hist, D, hrun, _⟩ := exact_run hwf hb hd h1
  obtain ⟨_, _, hc⟩ := hrun.calc
  exact ⟨r, sent, h1, h2.rounded hc⟩

/-- C63: and conversely. -/
theorem C63_exact_runs (hwf : ∀ r ∈ ranges, WfRange r) (hb : CardMask b) (hd : CardMask d) {sent : List Nat}
    (h : ExactEquity ranges b d nT cancelled stopped (.ok r) sent) :
    ∃ r' sent', ExactEquityF ranges b d nT cancelled stopped (.ok r') sent' ∧ Rounded ranges.length r r' := by
  obtain ⟨r', sent', h1, h2⟩ := exact_follows hwf hb hd h
  obtain ⟨s, ds, total, size, flag, r0, hist, D, hrun, _⟩ := exact_run hwf hb hd h
  obtain ⟨_, _, hc⟩ := hrun.calc
  exact ⟨r', sent', h1, h2.rounded hc⟩

/-- C63: the errors are the same. -/
theorem C63_errors (e : SimulatorError) (sent : List Nat) :
    ExactEquityF ranges b d nT cancelled stopped (.error e) sent ↔ ExactEquity ranges b d nT cancelled stopped (.error e) sent := by
  unfold ExactEquityF ExactEquity
  cases prepareExact ranges b d with
  | error e' => exact Iff.rfl
  | ok s =>
    constructor
    · rintro ⟨_, _, _, _, _, _, _, _, _, _, _, _, h, _⟩; cases h
    · rintro ⟨_, _, _, _, _, _, _, _, _, _, _, _, h, _⟩; cases h

/-- C63: with whole shares and a total weight of at most `2 ^ 53` the equities reported by the exact calculation are the exact equities,
each rounded once: the nearest `f64` numbers, for every number of threads and every schedule. -/
theorem C63_correctly_rounded (hwf : ∀ r ∈ ranges, WfRange r) (hb : CardMask b) (hd : CardMask d) (hT : 0 < nT) (h8 : ranges.length ≤ 8)
    (hw : WholeShares ranges b d) (h53 : totalWeight (showdowns (specRanges ranges) (maskCards b) (maskCards d)) ≤ 2 ^ 53)
    {r' : Results} {sent' : List Nat} (h : ExactEquityF ranges b d nT cancelled false (.ok r') sent') :
    let sd := showdowns (specRanges ranges) (maskCards b) (maskCards d)
    (∀ p < ranges.length, r'.ties p = sharesOf sd p) ∧
    ∀ p < ranges.length, r'.equities[p]? = some ((fdiv ((winsOf sd [p] : ℚ) + sharesOf sd p) (totalWeight sd : ℚ)).map fl) := by
  intro sd
  obtain ⟨r, sent, h1, h2⟩ := C63_exact_mode hwf hb hd h
  obtain ⟨s, ds, total, size, flag, r0, hist, D, hrun, _⟩ := exact_run hwf hb hd h1
  obtain ⟨_, _, _, hall⟩ := hrun.counts
  have hc := (hall hT rfl).2
  have hm : ∑ i ∈ range (2 ^ ranges.length), r.winsByMask i = totalWeight sd :=
    hc.maskSum (fun x hx => by
      obtain ⟨hdd, _⟩ := legal_iff.2 hx
      exact (deals_wf hwf hdd).1) (by omega)
  obtain ⟨e1, e2⟩ := C61_exact hwf hb hd hT h8 hw h1
  obtain ⟨_, _, hcalc⟩ := hrun.calc
  have hpot := hcalc.pot_le
  rw [hm] at hpot
  constructor
  · intro p hp
    rw [h2.ties p, e1 p hp]
    have h3 : r.ties p ≤ ∑ q ∈ range ranges.length, ((r.wins q : ℚ) + r.ties q) := by
      refine le_trans ?_ (Finset.single_le_sum (f := fun q => (r.wins q : ℚ) + r.ties q) (fun q hq => ?_) (Finset.mem_range.2 hp))
      · simp
      · obtain ⟨m, hm⟩ := h2.whole q
        rw [hm]
        positivity
    exact h3.trans (hpot.trans (by exact_mod_cast h53))
  · intro p hp
    rw [h2.once (by rw [hm]; exact h53), List.getElem?_map, e2 p hp]
    rfl

/-! ## Progress -/

theorem progressExactF_mono {a b : Nat} (total : Nat) (h : a ≤ b) : progressExactF a total ≤ progressExactF b total := by
  unfold progressExactF
  apply castU8_mono
  have h1 : fl a ≤ fl b := fl_mono (by positivity) (by exact_mod_cast h)
  have h2 : 0 ≤ fl a := fl_nonneg (by positivity)
  have h3 : 0 ≤ fl total := fl_nonneg (by positivity)
  have h4 := fl_mono (div_nonneg h2 h3) (div_le_div_of_nonneg_right h1 h3)
  have h5 := fl_nonneg (div_nonneg h2 h3)
  exact fl_mono (by positivity) (mul_le_mul_of_nonneg_right h4 (by norm_num))

theorem progressExactF_full {total : Nat} (h : 0 < total) : progressExactF total total = 100 := by
  unfold progressExactF
  have := one_le_fl h
  have h100 : fl 100 = 100 := by simpa using fl_nat (n := 100) (by norm_num)
  rw [div_self (by linarith), fl_one, one_mul, h100, castU8_hundred]

theorem progressExactF_le {a total : Nat} (h : a ≤ total) : progressExactF a total ≤ 100 := by
  rcases Nat.eq_zero_or_pos total with rfl | hp
  · have : a = 0 := by omega
    subst this
    decide +kernel
  · rw [← progressExactF_full hp]
    exact progressExactF_mono total h

/-- C63: the percentages sent to the progress callback with floating-point numbers do not decrease, are at most 100 and end with 100
unless the calculation is cancelled. -/
theorem C63_progress (hwf : ∀ r ∈ ranges, WfRange r) (hb : CardMask b) (hd : CardMask d) (hT : 0 < nT) {r' : Results} {sent' : List Nat}
    (h : ExactEquityF ranges b d nT cancelled stopped (.ok r') sent') :
    sent'.Pairwise (· ≤ ·) ∧ (∀ x ∈ sent', x ≤ 100) ∧ sent' ≠ [] ∧ (stopped = false → sent'.getLast? = some 100) := by
  obtain ⟨r, sent, total, h1, _, ⟨ps, e1, e2, hs, hle⟩, _⟩ := exactF_follows hwf hb hd h
  obtain ⟨_, _, k3, k4⟩ := C45_exact_progress hwf hb hd hT h1
  rw [e2]
  refine ⟨?_, ?_, ?_, ?_⟩
  · rw [List.pairwise_map]
    exact hs.imp fun h => progressExactF_mono total h
  · intro x hx
    obtain ⟨p, hp, rfl⟩ := List.mem_map.1 hx
    exact progressExactF_le (hle p hp)
  · intro hn
    apply k3
    rw [e1, List.map_eq_nil_iff.1 hn]
    rfl
  · intro hf
    have := k4 hf
    rw [e1, List.getLast?_map, Option.map_eq_some_iff] at this
    obtain ⟨p, hp, h100⟩ := this
    rw [List.getLast?_map, hp]
    have hpt := hle p (List.mem_of_getLast? hp)
    have : p = total := by
      by_contra hne
      have hlt : p < total := by omega
      have : progressExact p total < 100 := by
        unfold progressExact castU8
        have h0 : (0 : ℚ) < total := by exact_mod_cast (by omega : 0 < total)
        have h1 : (p : ℚ) / total < 1 := by
          rw [div_lt_one h0]; exact_mod_cast hlt
        have : ⌊(p : ℚ) / total * 100⌋ < 100 := by
          rw [Int.floor_lt]; push_cast; linarith
        omega
      omega
    have hpos : 0 < total := by
      rcases Nat.eq_zero_or_pos total with h0 | h0
      · exfalso
        rw [this, h0] at h100
        revert h100
        decide +kernel
      · exact h0
    rw [this, Option.map_some, progressExactF_full hpos]

/-- C63: a percentage computed with floating-point numbers differs by at most one from the exact one. -/
theorem C63_percentage {a total : Nat} (ht : total < 2 ^ 62) (h : a ≤ total) :
    progressExactF a total ≤ progressExact a total + 1 ∧ progressExact a total ≤ progressExactF a total + 1 := by
  rcases Nat.eq_zero_or_pos total with rfl | hp
  · have : a = 0 := by omega
    subst this
    decide +kernel
  have h0 : (0 : ℚ) < total := by exact_mod_cast hp
  have hle : (a : ℚ) ≤ total := by exact_mod_cast h
  have hfp := one_le_fl hp
  have hr := rate_rel a ht
  unfold fdiv ffdiv at hr
  rw [if_neg h0.ne', if_neg (by linarith)] at hr
  have hr : Rel 3 ((a : ℚ) / total) (fl (fl a / fl total)) := hr
  have hn : Normal (fl (fl a / fl total) * 100) := by
    rcases nat_big a with e | e
    · left; rw [e, zero_div, fl_zero, zero_mul]
    · have h1 : 1 / 2 ^ 66 ≤ fl a / fl total := by
        have := fl_le_pow62 ht
        rw [le_div_iff₀ (by linarith)]
        calc 1 / 2 ^ 66 * fl total ≤ 1 / 2 ^ 66 * 2 ^ 62 := by gcongr
          _ = 1 / 16 := by norm_num
          _ ≤ fl a := e
      have h2 : fl (1 / 2 ^ 66) = 1 / 2 ^ 66 := by decide +kernel
      have h3 := fl_mono (by norm_num) h1
      rw [h2] at h3
      exact normal_of_le (tiny_le (n := 66) (by omega)) (by linarith)
  have hr1 : Rel 3 ((a : ℚ) / total * 100) (fl (fl a / fl total) * 100) := by
    constructor
    · have := mul_le_mul_of_nonneg_right hr.1 (by norm_num : (0 : ℚ) ≤ 100)
      rw [mul_assoc] at this; exact this
    · have := mul_le_mul_of_nonneg_right hr.2 (by norm_num : (0 : ℚ) ≤ 100)
      rw [mul_assoc] at this; exact this
  have hr2 := hr1.trans (Rel.fl hn)
  have ha : (0 : ℚ) ≤ (a : ℚ) / total * 100 := by positivity
  have hlt : (a : ℚ) / total * 100 ≤ 100 := by
    have : (a : ℚ) / total ≤ 1 := by rw [div_le_one h0]; exact hle
    linarith
  have herr := abs_le.1 (C63_error (k := 3 + 1) (by norm_num) ha hr2)
  unfold progressExactF progressExact
  generalize (a : ℚ) / total * 100 = x at *
  generalize fl (fl (fl a / fl total) * 100) = y at *
  have hs : ((3 + 1 : Nat) : ℚ) / 2 ^ 52 * x < 1 := by
    have : ((3 + 1 : Nat) : ℚ) / 2 ^ 52 * x ≤ ((3 + 1 : Nat) : ℚ) / 2 ^ 52 * 100 := mul_le_mul_of_nonneg_left hlt (by positivity)
    refine this.trans_lt (by norm_num)
  have f1 : ⌊y⌋ ≤ ⌊x⌋ + 1 := by
    rw [← Int.floor_add_one]; apply Int.floor_le_floor; linarith [herr.2]
  have f2 : ⌊x⌋ ≤ ⌊y⌋ + 1 := by
    rw [← Int.floor_add_one]; apply Int.floor_le_floor; linarith [herr.1]
  have f3 : 0 ≤ ⌊x⌋ := Int.floor_nonneg.2 ha
  unfold castU8
  omega

/-- After 29 of 100 positions the exact percentage is 29; the one computed is 28. -/
example : progressExact 29 100 = 29 ∧ progressExactF 29 100 = 28 := by decide +kernel

/-! ## The random simulation -/

/-- C63: every result of the random simulation with floating-point numbers, whatever standard deviation it computes and whenever it
stops, belongs to a result of the exact model of a simulation that is stopped from outside. -/
theorem C63_approx_mode (hwf : ∀ r ∈ ranges, WfRange r) (hb : CardMask b) (hd : CardMask d) {dev : ℚ → ℚ → Option ℚ} {prog : Option ℚ → Nat}
    {target : ℚ} {r' : Results} {sent' : List Nat} (h : ApproxEquityF dev prog ranges b d nT target cancelled (.ok r') sent') :
    ∃ r sent, ApproxEquity (fun _ => 0) ranges b d nT 0 cancelled (.ok r) sent ∧ Rounded ranges.length r r' ∧ sent'.length = sent.length := by
  obtain ⟨r, sent, h1, h2, h3⟩ := approxF_follows hwf hb hd h
  obtain ⟨s, flag, r0, hist, sd, hrun, _⟩ := approx_run hwf hb hd h1
  exact ⟨r, sent, h1, h2.rounded hrun.calc, h3⟩

/-- C63: with whole shares the equities of the random simulation are those of the showdowns it has evaluated, rounded once. -/
theorem C63_approx_equities (hwf : ∀ r ∈ ranges, WfRange r) (hb : CardMask b) (hd : CardMask d) (h8 : ranges.length ≤ 8)
    (hw : WholeShares ranges b d) {dev : ℚ → ℚ → Option ℚ} {prog : Option ℚ → Nat} {target : ℚ} {r' : Results} {sent' : List Nat}
    (h : ApproxEquityF dev prog ranges b d nT target cancelled (.ok r') sent') :
    ∃ sd : List (List WHand × List Nat), (∀ x ∈ sd, x ∈ showdowns (specRanges ranges) (maskCards b) (maskCards d)) ∧
      r'.evalCount = sd.length ∧ (totalWeight sd ≤ 2 ^ 53 →
        ∀ p < ranges.length, r'.equities[p]? = some ((fdiv ((winsOf sd [p] : ℚ) + sharesOf sd p) (totalWeight sd : ℚ)).map fl)) := by
  obtain ⟨r, sent, h1, h2, _⟩ := C63_approx_mode hwf hb hd h
  obtain ⟨s, flag, r0, hist, sd, hrun, _⟩ := approx_run hwf hb hd h1
  refine ⟨sd, fun x hx => legal_iff.1 (hrun.legal x hx), h2.evals.trans hrun.counts.2, fun h53 p hp => ?_⟩
  have hm : ∑ i ∈ range (2 ^ ranges.length), r.winsByMask i = totalWeight sd :=
    hrun.counts.1.maskSum (fun x hx => (deals_wf hwf (hrun.legal x hx).1).1) (by omega)
  rw [h2.once (by rw [hm]; exact h53), List.getElem?_map, (hrun.calc.exact_shares h8 hw).2 p hp]
  rfl

/-- C63: every cancelled run of the exact model has a counterpart with floating-point numbers, whatever the standard deviation is. -/
theorem C63_approx_runs (hwf : ∀ r ∈ ranges, WfRange r) (hb : CardMask b) (hd : CardMask d) (dev : ℚ → ℚ → Option ℚ) (prog : Option ℚ → Nat)
    (target : ℚ) {tgt : ℚ} (cancelled : Bool) {sent : List Nat} (h : ApproxEquity sqrt ranges b d nT tgt true (.ok r) sent) :
    ∃ r' sent', ApproxEquityF dev prog ranges b d nT target cancelled (.ok r') sent' ∧ Rounded ranges.length r r' ∧
      sent'.length = sent.length := by
  obtain ⟨r', sent', h1, h2, h3⟩ := approx_follows hwf hb hd dev prog target cancelled h
  obtain ⟨s, flag, r0, hist, sd, hrun, _⟩ := approx_run hwf hb hd h
  exact ⟨r', sent', h1, h2.rounded hrun.calc, h3⟩

/-! ## Examples -/

/-- Aces against kings on a flop: there is a simulation with three threads and one batch each to which `C63_approx_equities` applies. -/
example (dev : ℚ → ℚ → Option ℚ) (prog : Option ℚ → Nat) :
    ∃ r sent, ApproxEquityF dev prog twoHands flopMask 0 3 (1 / 100) false (.ok r) sent ∧ r.evalCount = 12288 ∧ WholeShares twoHands flopMask 0 := by
  have hwf : ∀ r ∈ twoHands, WfRange r := by unfold WfRange twoHands; decide
  have hb : CardMask flopMask := by unfold CardMask; decide
  obtain ⟨r, sent, h, he⟩ := two_approx id (1 / 100) 3 true
  obtain ⟨r', sent', h', hr, _⟩ := C63_approx_runs hwf hb zero_deck dev prog (1 / 100) false h
  exact ⟨r', sent', h', hr.evals.trans he, C61_two_players hwf rfl (p := 0) (by decide) (by decide)⟩

/-- Aces against kings on a flop: the hypotheses of `C63_correctly_rounded` and `C63_progress` are met. -/
example (nT : Nat) (hT : 0 < nT) : ∃ r sent, ExactEquityF twoHands flopMask 0 nT false false (.ok r) sent ∧
    (let sd := showdowns (specRanges twoHands) (maskCards flopMask) (maskCards 0)
     r.equities[0]? = some ((fdiv ((winsOf sd [0] : ℚ) + sharesOf sd 0) (totalWeight sd : ℚ)).map fl)) ∧ sent.getLast? = some 100 := by
  have hwf : ∀ r ∈ twoHands, WfRange r := by unfold WfRange twoHands; decide
  have hb : CardMask flopMask := by unfold CardMask; decide
  obtain ⟨r, sent, h⟩ := two_run nT false
  obtain ⟨r', sent', h', _⟩ := C63_exact_runs hwf hb zero_deck h
  refine ⟨r', sent', h', ?_, (C63_progress hwf hb zero_deck hT h').2.2.2 rfl⟩
  exact (C63_correctly_rounded hwf hb zero_deck hT (by decide) (C61_two_players hwf rfl (p := 0) (by decide) (by decide))
    (by decide +kernel) h').2 0 (by decide)

/-- The equity of the aces in `test_accuracy`, rounded.  (The ranges are variables: unfolding them is slow.) -/
theorem accuracy_rounded {ranges : List (List Combo)} {b d nT : Nat} (hr : ranges = [aces, addAll]) (hb : b = kingsMask) (hd : d = 0)
    (hT : 0 < nT) {cancelled : Bool} {r' : Results} {sent' : List Nat} (h : ExactEquityF ranges b d nT cancelled false (.ok r') sent') :
    r'.equities[0]? = some (some (fl (10873 / 11385))) := by
  have hwf : ∀ r ∈ ranges, WfRange r := by rw [hr]; exact accuracy_wf
  have hbD : CardMask b := by rw [hb]; exact kings_deck
  have hdD : CardMask d := by rw [hd]; exact zero_deck
  have hs : specRanges ranges = [aces.map toHole, Pokers.allHands] := by rw [hr]; exact accuracy_spec
  have hbc : maskCards b = [4, 44, 45, 47] := by rw [hb]; exact kings_cards
  have hdc : maskCards d = [] := by rw [hd]; decide +kernel
  have hl : (maskCards b).length = 4 := by rw [hbc]; rfl
  have hlen : ranges.length = 2 := by rw [hr]; rfl
  have htot : totalWeight (showdowns (specRanges ranges) (maskCards b) (maskCards d)) = 2732400000 := by
    rw [hs, ← turn_total (maskCards d) (maskCards_isCards b) hl aces_two all_two, hbc, hdc]
    exact accuracy_total
  obtain ⟨r, sent, h1, h2⟩ := C63_exact_mode hwf hbD hdD h
  obtain ⟨s, ds, total, size, flag, r0, hist, D, hrun, _⟩ := exact_run hwf hbD hdD h1
  obtain ⟨_, _, _, hall⟩ := hrun.counts
  have hm := (hall hT rfl).2.maskSum (fun x hx => by
      obtain ⟨hdd, _⟩ := legal_iff.2 hx
      exact (deals_wf hwf hdd).1) (by omega)
  rw [h2.once (by rw [hm, htot]; norm_num), List.getElem?_map, accuracy_equity hr hb hd hT h1]
  rfl

/-- `test_accuracy` (src/equity_calculator/simulator.rs:1416-1426) bit by bit: for every number of threads there is a run, and every run
that is not cancelled reports for the aces the very `f64` number that the literal `0.9550285463328941` of the test denotes. -/
theorem C63_accuracy :
    ∃ ranges, fromStrings asciiLower ["AA".toList, "random".toList] = .ok ranges ∧
    ∀ nT, 0 < nT →
      (∃ r sent, ExactEquityF ranges (getCardMask asciiLower "KdKsKh3s".toList) (getCardMask asciiLower "".toList) nT false false (.ok r) sent) ∧
      ∀ cancelled r sent, ExactEquityF ranges (getCardMask asciiLower "KdKsKh3s".toList) (getCardMask asciiLower "".toList) nT cancelled false
          (.ok r) sent → r.equities[0]? = some (some (fl 0.9550285463328941)) := by
  obtain ⟨ranges, hr⟩ : ∃ ranges, ranges = [aces, addAll] := ⟨_, rfl⟩
  have e : fl 0.9550285463328941 = fl (10873 / 11385) := by decide +kernel
  refine ⟨ranges, by rw [hr]; exact accuracy_ranges, fun nT hT => ⟨?_, fun cancelled r sent h => ?_⟩⟩
  · obtain ⟨r, sent, h⟩ := accuracy_run hr accuracy_board accuracy_dead nT
    have hwf : ∀ r ∈ ranges, WfRange r := by rw [hr]; exact accuracy_wf
    obtain ⟨r', sent', h', _⟩ := C63_exact_runs hwf (by rw [accuracy_board]; exact kings_deck) (by rw [accuracy_dead]; exact zero_deck) h
    exact ⟨r', sent', h'⟩
  · rw [e]
    exact accuracy_rounded hr accuracy_board accuracy_dead hT h

end Pokers
