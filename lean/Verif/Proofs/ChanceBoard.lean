import Verif.Proofs.Chance
import Verif.Proofs.McUniform
import Mathlib.Data.Nat.Choose.Basic
/-!
The probabilities of the boards.
-/
namespace Pokers

open Spec
open scoped ENNReal

variable {α β : Type}

theorem average_congr {l : List α} {f g : α → ℝ≥0∞} (h : ∀ x ∈ l, f x = g x) : average l f = average l g := by
  unfold average; rw [List.map_congr_left h]

theorem average_map (l : List α) (e : α → β) (f : β → ℝ≥0∞) : average (l.map e) f = average l fun x => f (e x) := by
  unfold average
  rw [List.length_map, List.map_map]
  rfl

/-! ## One card -/

/-- The cards that are not used. -/
def openCards (used : Nat) : List Nat := (List.range 52).filter fun c => !used.testBit c

theorem mem_openCards {used c : Nat} : c ∈ openCards used ↔ c < 52 ∧ used.testBit c = false := by
  unfold openCards
  rw [List.mem_filter, List.mem_range]
  simp

theorem openCards_nodup (used : Nat) : (openCards used).Nodup := List.nodup_range.filter _

theorem drawCard_cons (used x : Nat) (r : Draws) : drawCard used (x :: r) =
    if x < 52 then if used.testBit x = false then .ok x r else drawCard used r else .more := by
  have e : drawCard used (x :: r) = if x < 52 then if used &&& (1 <<< x) = 0 then Out.ok x r else drawCard used r else .more := rfl
  rw [e]
  by_cases hx : x < 52
  · rw [if_pos hx, if_pos hx]
    by_cases hu : used.testBit x = false
    · rw [if_pos ((and_shl_eq_zero _ _).2 hu), if_pos hu]
    · rw [if_neg (fun h => hu ((and_shl_eq_zero _ _).1 h)), if_neg hu]
  · rw [if_neg hx, if_neg hx]

theorem drawCard_reads (used : Nat) : Reads (drawCard used) := by
  intro ds
  induction ds with
  | nil => intro a rest h; cases h
  | cons x ds ih =>
    intro a rest h
    rw [drawCard_cons] at h
    split_ifs at h with h1 h2
    · injection h with h3 h4
      subst h3 h4
      refine ⟨[x], rfl, fun r => ?_⟩
      show drawCard used (x :: r) = _
      rw [drawCard_cons, if_pos h1, if_pos h2]
    · obtain ⟨p, rfl, h3⟩ := ih _ _ h
      refine ⟨x :: p, rfl, fun r => ?_⟩
      rw [List.cons_append, drawCard_cons, if_pos h1, if_neg h2, h3]

section
variable {used : Nat} (hne : openCards used ≠ [])
include hne

theorem drawCard_ends : CanEnd (drawCard used) := by
  obtain ⟨c, hc⟩ := List.exists_mem_of_ne_nil _ hne
  obtain ⟨h1, h2⟩ := mem_openCards.1 hc
  exact ⟨[c], c, by rw [drawCard_cons, if_pos h1, if_pos h2]⟩

theorem drawCard_first : firstDraws (drawCard used) = ↑(Finset.range 52) := by
  ext x
  rw [Finset.coe_range, Set.mem_Iio]
  constructor
  · rintro ⟨q, a, h⟩
    rw [drawCard_cons] at h
    by_contra hx
    rw [if_neg hx] at h
    cases h
  · intro hx
    by_cases hu : used.testBit x = false
    · exact ⟨[], x, by rw [drawCard_cons, if_pos hx, if_pos hu]⟩
    · obtain ⟨q, a, h⟩ := drawCard_ends hne
      exact ⟨q, a, by rw [drawCard_cons, if_pos hx, if_neg hu, h]⟩

/-- The contribution of a first card. -/
theorem drawCard_contribution (φ : Nat → ℝ≥0∞) (x : Nat) (ds : Draws) : contribution (drawCard used) φ (x :: ds) =
    52⁻¹ * if x < 52 then if used.testBit x = false then (if ds = [] then φ x else 0) else contribution (drawCard used) φ ds else 0 := by
  by_cases hx : x < 52
  · by_cases hu : used.testBit x = false
    · have h : drawCard used (x :: ds) = .ok x ds := by rw [drawCard_cons, if_pos hx, if_pos hu]
      rw [if_pos hx, if_pos hu]
      cases ds with
      | nil =>
        rw [contribution_of _ h, if_pos rfl, chance, drawCard_first hne, Set.encard_coe_eq_coe_finsetCard, Finset.card_range, chance, mul_one]
        rfl
      | cons y ds =>
        rw [contribution_not, if_neg (by simp), mul_zero]
        intro a h'
        rw [h] at h'
        cases h'
    · rw [if_pos hx, if_neg hu]
      have hd : (fun r => drawCard used (x :: r)) = drawCard used := by
        funext r
        rw [drawCard_cons, if_pos hx, if_neg hu]
      have h : drawCard used (x :: ds) = drawCard used ds := congrFun hd ds
      by_cases ho : ∃ a, drawCard used ds = .ok a []
      · obtain ⟨a, ho⟩ := ho
        rw [contribution_of _ (h.trans ho), contribution_of _ ho, chance, drawCard_first hne, Set.encard_coe_eq_coe_finsetCard, Finset.card_range, hd,
          mul_assoc]
        rfl
      · push Not at ho
        rw [contribution_not _ ho, contribution_not, mul_zero]
        intro a
        rw [h]
        exact ho a
  · rw [if_neg hx, mul_zero]
    apply contribution_not
    intro a h
    rw [drawCard_cons, if_neg hx] at h
    cases h

omit hne in
theorem tsum_lists (F : Draws → ℝ≥0∞) (h0 : F [] = 0) : ∑' ds, F ds = ∑' (x : Nat) (ds : Draws), F (x :: ds) := by
  let e : Nat × Draws → Draws := fun p => p.1 :: p.2
  have he : Function.Injective e := by
    rintro ⟨a, b⟩ ⟨c, d⟩ h
    injection h with h1 h2
    exact Prod.ext h1 h2
  rw [← ENNReal.tsum_prod, ← he.tsum_eq]
  intro ds hds
  cases ds with
  | nil => exact absurd h0 hds
  | cons x ds => exact ⟨(x, ds), rfl⟩

omit hne in
theorem sum_split (φ : Nat → ℝ≥0∞) (E : ℝ≥0∞) : ∑ x ∈ Finset.range 52, (if used.testBit x = false then φ x else E) =
    ((openCards used).map φ).sum + ((52 - (openCards used).length : Nat) : ℝ≥0∞) * E := by
  rw [Finset.sum_ite, Finset.sum_const, nsmul_eq_mul]
  have h1 : (Finset.range 52).filter (fun x => used.testBit x = false) = (openCards used).toFinset := by
    ext x
    rw [Finset.mem_filter, Finset.mem_range, List.mem_toFinset, mem_openCards]
  have h2 : ((Finset.range 52).filter (fun x => ¬ used.testBit x = false)).card = 52 - (openCards used).length := by
    have := Finset.card_filter_add_card_filter_not (s := Finset.range 52) (fun x => used.testBit x = false)
    rw [h1, List.toFinset_card_of_nodup (openCards_nodup used), Finset.card_range] at this
    omega
  rw [h1, h2, List.sum_toFinset _ (openCards_nodup used)]

omit hne in
theorem openCards_le : (openCards used).length ≤ 52 := by
  unfold openCards
  exact (List.length_filter_le _ _).trans (by rw [List.length_range])

/-- The cards that are not used are equally likely. -/
theorem expect_drawCard (φ : Nat → ℝ≥0∞) : expect (drawCard used) φ = average (openCards used) φ := by
  set m := (openCards used).length with hm
  set A := ((openCards used).map φ).sum with hA
  have hm0 : 0 < m := List.length_pos_iff.2 hne
  have hm52 : m ≤ 52 := openCards_le
  have hmq : (m : ℝ≥0∞) ≠ 0 := by exact_mod_cast hm0.ne'
  have hmt : (m : ℝ≥0∞) ≠ ⊤ := ENNReal.natCast_ne_top m
  have h52 : (52 : ℝ≥0∞) ≠ 0 := by norm_num
  have h52t : (52 : ℝ≥0∞) ≠ ⊤ := by norm_num
  have hum : ((52 - m : Nat) : ℝ≥0∞) + m = 52 := by
    have : 52 - m + m = 52 := by omega
    exact_mod_cast congrArg (Nat.cast (R := ℝ≥0∞)) this
  set u : ℝ≥0∞ := ((52 - m : Nat) : ℝ≥0∞) with hu
  set X := (m : ℝ≥0∞)⁻¹ * A with hX
  have hfix : 52⁻¹ * (A + u * X) = X := by
    have : A + u * X = 52 * X := by
      rw [← hum, add_mul, hX, ← mul_assoc (m : ℝ≥0∞), ENNReal.mul_inv_cancel hmq hmt, one_mul, add_comm]
    rw [this, ← mul_assoc, ENNReal.inv_mul_cancel h52 h52t, one_mul]
  -- the equation
  have hE : expect (drawCard used) φ = 52⁻¹ * (A + u * expect (drawCard used) φ) := by
    conv_lhs => rw [expect_first (by intro a h; cases h) (drawCard_first hne), Finset.card_range]
    rw [← sum_split φ]
    congr 1
    refine Finset.sum_congr rfl fun x hx => ?_
    have hx := Finset.mem_range.1 hx
    by_cases hu : used.testBit x = false
    · rw [if_pos hu]
      have : (fun r => drawCard used (x :: r)) = retD x := by
        funext r
        rw [drawCard_cons, if_pos hx, if_pos hu]
        rfl
      rw [this, expect_ret]
    · rw [if_neg hu]
      congr 1
      funext r
      rw [drawCard_cons, if_pos hx, if_neg hu]
  -- the upper bound
  have hle : expect (drawCard used) φ ≤ X := by
    have hP : ∀ N : Nat, ∑' ds : Draws, (if ds.length ≤ N then contribution (drawCard used) φ ds else 0) ≤ X := by
      intro N
      induction N with
      | zero =>
        have : ∀ ds : Draws, (if ds.length ≤ 0 then contribution (drawCard used) φ ds else 0) = 0 := by
          intro ds
          split_ifs with h
          · rw [List.eq_nil_of_length_eq_zero (Nat.le_zero.1 h)]
            exact contribution_not _ (by intro a h; cases h)
          · rfl
        simp only [this, tsum_zero]
        exact zero_le
      | succ N ih =>
        rw [tsum_lists _ (by
          rw [if_pos (by simp)]
          exact contribution_not _ (by intro a h; cases h))]
        have e : ∀ x : Nat, ∑' ds : Draws, (if (x :: ds).length ≤ N + 1 then contribution (drawCard used) φ (x :: ds) else 0) =
            if x < 52 then 52⁻¹ * (if used.testBit x = false then φ x else
              ∑' ds : Draws, (if ds.length ≤ N then contribution (drawCard used) φ ds else 0)) else 0 := by
          intro x
          simp only [drawCard_contribution hne, List.length_cons, Nat.add_le_add_iff_right]
          by_cases hx : x < 52
          · simp only [if_pos hx]
            by_cases hu : used.testBit x = false
            · simp only [if_pos hu]
              rw [tsum_eq_single []]
              · simp
              · intro ds hds
                simp [hds]
            · simp only [if_neg hu]
              rw [← ENNReal.tsum_mul_left]
              refine tsum_congr fun ds => ?_
              split_ifs
              · rfl
              · rw [mul_zero]
          · simp only [if_neg hx, mul_zero, ite_self, tsum_zero]
        simp only [e]
        rw [tsum_eq_sum (s := Finset.range 52) (by
          intro x hx
          rw [if_neg (by simpa using hx)])]
        rw [Finset.sum_congr rfl (g := fun x => 52⁻¹ * (if used.testBit x = false then φ x else
              ∑' ds : Draws, (if ds.length ≤ N then contribution (drawCard used) φ ds else 0))) (fun x hx => by
              rw [if_pos (Finset.mem_range.1 hx)]), ← Finset.mul_sum, sum_split]
        calc _ ≤ 52⁻¹ * (A + u * X) := by gcongr
          _ = X := hfix
    unfold expect
    rw [ENNReal.tsum_eq_iSup_sum]
    refine iSup_le fun S => ?_
    refine le_trans ?_ (hP (S.sup List.length))
    calc ∑ ds ∈ S, contribution (drawCard used) φ ds = ∑ ds ∈ S, (if ds.length ≤ S.sup List.length then contribution (drawCard used) φ ds else 0) := by
          refine Finset.sum_congr rfl fun ds hds => ?_
          rw [if_pos (Finset.le_sup (f := List.length) hds)]
      _ ≤ _ := ENNReal.sum_le_tsum _
  show _ = X
  refine le_antisymm hle ?_
  by_cases hXt : X = ⊤
  · have hAt : A = ⊤ := by
      by_contra h
      exact ENNReal.mul_ne_top (ENNReal.inv_ne_top.2 hmq) h hXt
    rw [hE, hAt, top_add, ENNReal.mul_top (ENNReal.inv_ne_zero.2 h52t)]
    exact le_top
  · have hEt : expect (drawCard used) φ ≠ ⊤ := ne_top_of_le_ne_top hXt hle
    set E := expect (drawCard used) φ with hEE
    have h1 : 52 * E = A + u * E := by
      conv_lhs => rw [hE]
      rw [← mul_assoc, ENNReal.mul_inv_cancel h52 h52t, one_mul]
    rw [← hum, add_mul, add_comm] at h1
    have hut : u * E ≠ ⊤ := ENNReal.mul_ne_top (ENNReal.natCast_ne_top _) hEt
    have h2 : (m : ℝ≥0∞) * E = A := (ENNReal.add_left_inj hut).1 h1
    rw [hX, ← h2, ← mul_assoc, ENNReal.inv_mul_cancel hmq hmt, one_mul]

end

/-! ## The board -/

theorem openCards_or (used c : Nat) : openCards (used ||| (1 <<< c)) = (openCards used).erase c := by
  rw [(openCards_nodup used).erase_eq_filter]
  unfold openCards
  rw [List.filter_filter]
  apply List.filter_congr
  intro x _
  rw [Nat.testBit_or, Nat.one_shiftLeft, Nat.testBit_two_pow]
  by_cases h : c = x
  · simp [h]
  · simp [h, Ne.symm h]

/-- Choosing a card and then others, for all cards, gives each set as often as it has cards. -/
theorem sum_sublistsLen (G : List Nat → ℝ≥0∞) (hG : ∀ l l' : List Nat, l.Perm l' → G l = G l') : ∀ (F : List Nat), F.Nodup → ∀ k,
    (F.map fun c => (((F.erase c).sublistsLen k).map fun T => G (c :: T)).sum).sum = ((k + 1 : Nat) : ℝ≥0∞) * ((F.sublistsLen (k + 1)).map G).sum
  | [], _, k => by simp
  | a :: F, hn, k => by
    obtain ⟨ha, hF⟩ := List.nodup_cons.1 hn
    have ih := sum_sublistsLen G hG F hF k
    rw [List.map_cons, List.sum_cons, List.erase_cons_head, List.sublistsLen_succ_cons, List.map_append, List.sum_append, List.map_map]
    have e : (F.map fun c => ((((a :: F).erase c).sublistsLen k).map fun T => G (c :: T)).sum).sum =
        (F.map fun c => (((F.erase c).sublistsLen k).map fun T => G (c :: T)).sum).sum + (k : ℝ≥0∞) * (((F.sublistsLen k).map fun T => G (a :: T)).sum) := by
      cases k with
      | zero =>
        simp
      | succ k =>
        have ih' := sum_sublistsLen (fun T => G (a :: T)) (fun l l' h => hG _ _ (h.cons a)) F hF k
        rw [← ih', ← List.sum_map_add]
        congr 1
        apply List.map_congr_left
        intro c hc
        have hca : ¬ a = c := fun h => ha (h ▸ hc)
        rw [List.erase_cons_tail (by simpa using hca), List.sublistsLen_succ_cons, List.map_append, List.sum_append, List.map_map]
        congr 2
        apply List.map_congr_left
        intro T _
        exact hG _ _ (List.Perm.swap _ _ _)
    rw [e, ih]
    show (((F.sublistsLen k).map fun T => G (a :: T)).sum) + (_ + _) = _ * (_ + ((F.sublistsLen k).map fun T => G (a :: T)).sum)
    push_cast
    ring

theorem randomizeBoard_bind (k used : Nat) (board : Hand) : randomizeBoard (k + 1) used board =
    bindD (drawCard used) fun c => randomizeBoard k (used ||| (1 <<< c)) (board + CARDS c) := by
  funext ds
  unfold bindD
  rw [randomizeBoard]
  cases drawCard used ds <;> rfl

theorem openCards_succ {used c : Nat} (hc : c ∈ openCards used) : (openCards (used ||| (1 <<< c))).length + 1 = (openCards used).length := by
  rw [openCards_or, List.length_erase_of_mem hc]
  have := List.length_pos_of_mem hc
  omega

theorem drawCard_free {used : Nat} {q : Draws} {c : Nat} {r : Draws} (h : drawCard used q = .ok c r) : c ∈ openCards used := by
  obtain ⟨h1, h2, _⟩ := drawCard_ok h
  exact mem_openCards.2 ⟨h1, h2⟩

theorem randomizeBoard_reads : ∀ (k used : Nat) (board : Hand), Reads (randomizeBoard k used board)
  | 0, _, board => Reads.ret board
  | k + 1, used, board => by
    rw [randomizeBoard_bind]
    exact (drawCard_reads used).bind fun _ _ _ _ => randomizeBoard_reads k _ _

theorem randomizeBoard_ends : ∀ (k used : Nat) (board : Hand), k ≤ (openCards used).length → CanEnd (randomizeBoard k used board)
  | 0, _, board, _ => CanEnd.ret board
  | k + 1, used, board, h => by
    rw [randomizeBoard_bind]
    have hne : openCards used ≠ [] := List.length_pos_iff.1 (by omega)
    refine CanEnd.bind (drawCard_reads used) (drawCard_ends hne) fun q c hq => ?_
    have := openCards_succ (drawCard_free hq)
    exact randomizeBoard_ends k _ _ (by omega)

/-- All sets of cards are equally likely. -/
theorem expect_randomizeBoard (χ : Hand → ℝ≥0∞) : ∀ (k used : Nat) (bs : List Nat), k ≤ (openCards used).length →
    expect (randomizeBoard k used (ofCards bs)) χ = average ((openCards used).sublistsLen k) fun T => χ (ofCards (bs ++ T))
  | 0, used, bs, _ => by
    show expect (retD (ofCards bs)) χ = _
    rw [expect_ret]
    simp [average]
  | k + 1, used, bs, h => by
    have hne : openCards used ≠ [] := List.length_pos_iff.1 (by omega)
    rw [randomizeBoard_bind, expect_bind (drawCard_reads used) (fun q c hq => by
      have := openCards_succ (drawCard_free hq)
      exact randomizeBoard_ends k _ _ (by omega)), expect_drawCard hne]
    set G : List Nat → ℝ≥0∞ := fun T => χ (ofCards (bs ++ T)) with hG
    set m := (openCards used).length with hm
    have hstep : ∀ c ∈ openCards used, expect (randomizeBoard k (used ||| (1 <<< c)) (ofCards bs + CARDS c)) χ =
        ((m - 1).choose k : ℝ≥0∞)⁻¹ * ((((openCards used).erase c).sublistsLen k).map fun T => G (c :: T)).sum := by
      intro c hc
      have h1 := openCards_succ hc
      have h2 : ofCards bs + CARDS c = ofCards (bs ++ [c]) := by rw [ofCards_append]; rfl
      rw [h2, expect_randomizeBoard χ k _ _ (by omega), average, List.length_sublistsLen, openCards_or,
        List.length_erase_of_mem hc]
      congr 2
      apply List.map_congr_left
      intro T _
      rw [hG, List.append_assoc]
      rfl
    rw [average_congr hstep, average, average, List.sum_map_mul_left, sum_sublistsLen G (fun l l' hl => by
      rw [hG]
      exact congrArg χ (ofCards_perm ((List.Perm.refl bs).append hl))) _ (openCards_nodup used), List.length_sublistsLen, ← hm]
    obtain ⟨n, hn⟩ : ∃ n, m = n + 1 := ⟨m - 1, by omega⟩
    rw [hn, Nat.add_sub_cancel, ← mul_assoc, ← mul_assoc]
    congr 1
    have e : ((n + 1 : Nat) : ℝ≥0∞) * (n.choose k : ℝ≥0∞) = ((n + 1).choose (k + 1) : ℝ≥0∞) * ((k + 1 : Nat) : ℝ≥0∞) := by
      exact_mod_cast congrArg (Nat.cast (R := ℝ≥0∞)) (Nat.add_one_mul_choose_eq n k)
    have hk1 : ((k + 1 : Nat) : ℝ≥0∞) ≠ 0 := by exact_mod_cast Nat.succ_ne_zero k
    rw [← ENNReal.mul_inv (Or.inr (ENNReal.natCast_ne_top _)) (Or.inl (ENNReal.natCast_ne_top _)), e,
      ENNReal.mul_inv (Or.inr (ENNReal.natCast_ne_top _)) (Or.inl (ENNReal.natCast_ne_top _)), mul_assoc,
      ENNReal.inv_mul_cancel hk1 (ENNReal.natCast_ne_top _), mul_one]

end Pokers
