import Verif.Proofs.ScoreCounts
import Verif.Proofs.SuitSymmetry
import Verif.Props.Evaluator
import Verif.Spec.Score
/-!
# The scores are the numbers of `Spec/Score.lean`

Within a category (other than the flushes) the scores of hands of two to five cards are consecutive; the score of a flush is
20480 more than that of the high-card hand of the same ranks.
-/
namespace Pokers.Kernel

open Pokers Spec

/-! ## The categories without gaps -/

/-- The scores of the hands of two to five cards. -/
noncomputable def smallScores : Nat := Nat.lor (Nat.lor scoreSet2 scoreSet3) (Nat.lor scoreSet4 scoreSet5)

/-- How many scores a category has. -/
def sizes : List Nat := [0, 2356, 3887, 936, 1027, 10, 0, 156, 169, 10]

theorem categories_full : ∀ c ∈ [1, 2, 3, 4, 5, 7, 8, 9],
    Nat.land (Nat.shiftRight smallScores (4096 * c)) (Nat.sub (Nat.pow 2 4096) 1) = Nat.shiftLeft (Nat.sub (Nat.pow 2 (sizes.getD c 0)) 1) 1 := by
  decide +kernel

theorem smallScores_iff (s : Nat) : smallScores.testBit s = true ↔
    ∃ ds, IsCards ds ∧ 2 ≤ ds.length ∧ ds.length ≤ 5 ∧ (ofCards ds).evaluate = s := by
  have e : smallScores.testBit s = ((scoreSet2.testBit s || scoreSet3.testBit s) || (scoreSet4.testBit s || scoreSet5.testBit s)) := by
    show ((scoreSet2 ||| scoreSet3) ||| (scoreSet4 ||| scoreSet5)).testBit s = _
    rw [Nat.testBit_or, Nat.testBit_or, Nat.testBit_or]
  rw [e]
  simp only [Bool.or_eq_true, scores_of_2.mem, scores_of_3.mem, scores_of_4.mem, scores_of_5.mem]
  constructor
  · rintro ((⟨ds, h1, h2, h3⟩ | ⟨ds, h1, h2, h3⟩) | (⟨ds, h1, h2, h3⟩ | ⟨ds, h1, h2, h3⟩)) <;> exact ⟨ds, h1, by omega, by omega, h3⟩
  · rintro ⟨ds, h1, h2, h5, h3⟩
    have : ds.length = 2 ∨ ds.length = 3 ∨ ds.length = 4 ∨ ds.length = 5 := by omega
    rcases this with h | h | h | h
    · exact .inl (.inl ⟨ds, h1, h, h3⟩)
    · exact .inl (.inr ⟨ds, h1, h, h3⟩)
    · exact .inr (.inl ⟨ds, h1, h, h3⟩)
    · exact .inr (.inr ⟨ds, h1, h, h3⟩)

theorem testBit_block {M K N k i : Nat} (h : Nat.land (Nat.shiftRight M k) (Nat.sub (Nat.pow 2 K) 1) = Nat.shiftLeft (Nat.sub (Nat.pow 2 N) 1) 1)
    (hi : i < K) : M.testBit (k + i) = true ↔ 1 ≤ i ∧ i ≤ N := by
  have h : ((M >>> k) &&& (2 ^ K - 1)).testBit i = ((2 ^ N - 1) <<< 1).testBit i := congrArg (Nat.testBit · i) h
  rw [Nat.testBit_and, Nat.testBit_shiftRight, Nat.testBit_two_pow_sub_one, Nat.testBit_shiftLeft, Nat.testBit_two_pow_sub_one] at h
  rw [decide_eq_true hi, Bool.and_true] at h
  rw [h, Bool.and_eq_true, decide_eq_true_eq, decide_eq_true_eq]
  omega

theorem category_full {c : Nat} (hc : c ∈ [1, 2, 3, 4, 5, 7, 8, 9]) {i : Nat} (hi : i < 4096) :
    smallScores.testBit (4096 * c + i) = true ↔ 1 ≤ i ∧ i ≤ sizes.getD c 0 :=
  testBit_block (categories_full c hc) hi

/-! ## Flushes -/

/-- The cards of the given ranks, all of suit 0. -/
def suited (rs : List Nat) : List Nat := rs.map (4 * ·)

/-- The same, but the first of suit 1. -/
def offsuit : List Nat → List Nat
  | [] => []
  | r :: rs => (4 * r + 1) :: suited rs

set_option maxRecDepth 200000 in
theorem flush_numbers : ∀ rs ∈ (List.range 13).sublistsLen 5, (value (suited rs)).headI = 6 →
    value (offsuit rs) = 1 :: (value (suited rs)).tail ∧
    ev (ofCards (suited rs)).key (ofCards (suited rs)).mask = ev (ofCards (offsuit rs)).key (ofCards (offsuit rs)).mask + 20480 := by
  decide +kernel

theorem best_small {cs : List Nat} (h : cs.length ≤ 5) : best cs = value cs := by
  unfold best playable
  rw [Nat.min_eq_right h, List.sublistsLen_length]
  show max (value cs) [] = value cs
  exact max_eq_left (not_lt.1 (List.not_lt_nil _))

theorem best_played (cs : List Nat) (h : IsCards cs) (h2 : 2 ≤ cs.length) (h7 : cs.length ≤ 7) :
    ∃ x, IsCards x ∧ 2 ≤ x.length ∧ x.length ≤ 5 ∧ value x = best cs ∧ (ofCards x).evaluate = (ofCards cs).evaluate := by
  obtain ⟨x, hx, hv⟩ := best_mem cs
  unfold playable at hx
  rw [List.mem_sublistsLen] at hx
  have hi : IsCards x := ⟨h.1.sublist hx.1, fun c hc => h.2 c (hx.1.subset hc)⟩
  have h5 : x.length ≤ 5 := by omega
  refine ⟨x, hi, by omega, h5, hv, ?_⟩
  rw [(C01_evaluate_order hi h (by omega) (by omega) h2 h7).2.1, best_small h5, hv]

/-- A flush and the high-card hand of the same ranks. -/
theorem flush_partner {x : List Nat} (h : IsCards x) (h2 : 2 ≤ x.length) (h5 : x.length ≤ 5) {t : List Nat} (hv : value x = 6 :: t) :
    ∃ ds, IsCards ds ∧ 2 ≤ ds.length ∧ ds.length ≤ 5 ∧ value ds = 1 :: t ∧ (ofCards x).evaluate = (ofCards ds).evaluate + 20480 := by
  have hf : isFlush x = true := by
    have hc : category x = 6 := (List.cons.inj hv).1
    by_contra hn
    rw [Bool.not_eq_true] at hn
    unfold category categoryOf at hc
    rw [hn] at hc
    simp only [Bool.and_false, Bool.false_eq_true, if_false] at hc
    split_ifs at hc <;> omega
  unfold isFlush at hf
  rw [Bool.and_eq_true, Nat.beq_eq, List.any_eq_true] at hf
  obtain ⟨hl, s, hs, hall⟩ := hf
  have hs4 : s < 4 := by
    simp only [List.mem_cons, List.not_mem_nil, or_false] at hs; omega
  have hsuit : ∀ c ∈ x, suit c = s := by
    intro c hc
    have := List.all_eq_true.1 hall c hc
    rwa [Nat.beq_eq] at this
  have hcard : ∀ c ∈ x, c = 4 * rank c + s := by
    intro c hc
    have := hsuit c hc
    unfold suit at this; unfold rank; omega
  let σ : Nat → Nat := fun a => if a = s then 0 else if a = 0 then s else a
  have hσ : SuitPerm σ := by
    constructor
    · intro a ha; simp only [σ]; split_ifs <;> omega
    · intro a ha b hb; simp only [σ]; split_ifs <;> omega
  have hrel : x.map (relabel σ) = suited (x.map rank) := by
    unfold suited
    rw [List.map_map]
    apply List.map_congr_left
    intro c hc
    show 4 * rank c + σ (suit c) = 4 * rank c
    rw [hsuit c hc]
    simp [σ]
  have hnd : (x.map rank).Nodup := by
    refine List.Nodup.map_on (fun a ha b hb hab => ?_) h.1
    rw [hcard a ha, hcard b hb, hab]
  let rs := (List.range 13).filter (fun r => decide (r ∈ x.map rank))
  have hperm : (x.map rank).Perm rs := by
    refine (List.perm_ext_iff_of_nodup hnd (List.nodup_range.filter _)).2 fun r => ?_
    simp only [List.mem_filter, List.mem_range, decide_eq_true_eq]
    refine ⟨fun hr => ⟨?_, hr⟩, fun hr => hr.2⟩
    obtain ⟨c, hc, rfl⟩ := List.mem_map.1 hr
    have := h.2 c hc
    unfold rank; omega
  have hrl : rs.length = 5 := by rw [← hperm.length_eq, List.length_map, hl]
  have hmem : rs ∈ (List.range 13).sublistsLen 5 := List.mem_sublistsLen.2 ⟨List.filter_sublist, hrl⟩
  have hrs : ∀ r ∈ rs, r < 13 := fun r hr => List.mem_range.1 (List.mem_filter.1 hr).1
  have hrn : rs.Nodup := List.nodup_range.filter _
  have hyp : (x.map (relabel σ)).Perm (suited rs) := by rw [hrel]; exact hperm.map _
  have hb : value (suited rs) = value x := by
    rw [← value_perm hyp, ← best_small (cs := x.map (relabel σ)) (by rw [List.length_map]; exact h5), best_relabel hσ, best_small h5]
  have isS : IsCards (suited rs) := by
    constructor
    · exact hrn.map (fun a b hab => by have hab : 4 * a = 4 * b := hab; omega)
    · intro c hc
      obtain ⟨r, hr, rfl⟩ := List.mem_map.1 hc
      have := hrs r hr
      show 4 * r < 52; omega
  have lenS : (suited rs).length = 5 := by rw [suited, List.length_map, hrl]
  have hev : (ofCards (suited rs)).evaluate = (ofCards x).evaluate := by
    rw [(C01_evaluate_order isS h (by omega) (by omega) h2 (by omega)).2.1, best_small (by omega), best_small h5, hb]
  obtain ⟨n1, n2⟩ := flush_numbers rs hmem (by rw [hb, hv]; rfl)
  rw [ev_eq, ev_eq, hev] at n2
  rw [hb, hv] at n1
  have lenO : (offsuit rs).length = 5 := by
    cases hr : rs with
    | nil => rw [hr] at hrl; cases hrl
    | cons r l => rw [hr] at hrl; simpa [offsuit, suited] using hrl
  refine ⟨offsuit rs, ?_, by omega, by omega, n1, n2⟩
  cases hr : rs with
  | nil => rw [hr] at hrl; cases hrl
  | cons r l =>
    rw [hr] at isS hrs
    have isS : IsCards (4 * r :: suited l) := isS
    refine ⟨List.nodup_cons.2 ⟨?_, (List.nodup_cons.1 isS.1).2⟩, ?_⟩
    · intro hm
      obtain ⟨a, _, ha⟩ := List.mem_map.1 hm
      have ha : 4 * a = 4 * r + 1 := ha
      omega
    · intro c hc
      rcases List.mem_cons.1 hc with rfl | hc
      · have := hrs r List.mem_cons_self; omega
      · exact isS.2 c (List.mem_cons_of_mem _ hc)

/-! ## The numbers -/

theorem place_eq {ds : List Nat} (h : IsCards ds) (h2 : 2 ≤ ds.length) (h5 : ds.length ≤ 5) (h6 : (ofCards ds).evaluate >>> 12 ≠ 6) :
    place (value ds) = (ofCards ds).evaluate - 4096 * ((ofCards ds).evaluate >>> 12) := by
  have small : ∀ {a : List Nat}, IsCards a → 2 ≤ a.length → a.length ≤ 5 → (value a).head? = some ((ofCards a).evaluate >>> 12) := by
    intro a h h2 h5
    obtain ⟨t, ht⟩ := evaluate_category h h2 (by omega)
    rw [← best_small h5, ht]; rfl
  have ord : ∀ {a b : List Nat}, IsCards a → 2 ≤ a.length → a.length ≤ 5 → IsCards b → 2 ≤ b.length → b.length ≤ 5 →
      ((value a ≤ value b ↔ (ofCards a).evaluate ≤ (ofCards b).evaluate) ∧ (value a = value b ↔ (ofCards a).evaluate = (ofCards b).evaluate)) := by
    intro a b a1 a2 a3 b1 b2 b3
    have := C01_evaluate_order a1 b1 a2 (by omega) b2 (by omega)
    rw [best_small a3, best_small b3] at this
    refine ⟨?_, this.2.1.symm⟩
    rw [← not_lt, ← this.2.2]; omega
  set e := (ofCards ds).evaluate with he
  set c := e >>> 12 with hc
  have hcdef : c = e / 4096 := by rw [hc, Nat.shiftRight_eq_div_pow]
  have hr := C02_category_range h h2 (show ds.length ≤ 7 by omega)
  rw [← he, ← hc] at hr
  have hcm : c ∈ [1, 2, 3, 4, 5, 7, 8, 9] := by
    simp only [List.mem_cons, List.not_mem_nil, or_false]; omega
  have hbit : smallScores.testBit e = true := (smallScores_iff e).2 ⟨ds, h, h2, h5, rfl⟩
  have hei : e = 4096 * c + e % 4096 := by rw [hcdef]; omega
  have hlt : e % 4096 < 4096 := Nat.mod_lt _ (by decide)
  have hfull : 1 ≤ e % 4096 ∧ e % 4096 ≤ sizes.getD c 0 := by
    rw [hei] at hbit; exact (category_full hcm hlt).1 hbit
  classical
  let g : Nat → List Nat := fun s => if hs : ∃ a, IsCards a ∧ 2 ≤ a.length ∧ a.length ≤ 5 ∧ (ofCards a).evaluate = s then value hs.choose else []
  have hg : ∀ a, IsCards a → 2 ≤ a.length → a.length ≤ 5 → g (ofCards a).evaluate = value a := by
    intro a a1 a2 a3
    have hs : ∃ b, IsCards b ∧ 2 ≤ b.length ∧ b.length ≤ 5 ∧ (ofCards b).evaluate = (ofCards a).evaluate := ⟨a, a1, a2, a3, rfl⟩
    simp only [g]
    rw [dif_pos hs]
    obtain ⟨b1, b2, b3, b4⟩ := hs.choose_spec
    exact (ord b1 b2 b3 a1 a2 a3).2.2 b4
  have hex : ∀ s ∈ Finset.Icc (4096 * c + 1) e, ∃ a, IsCards a ∧ 2 ≤ a.length ∧ a.length ≤ 5 ∧ (ofCards a).evaluate = s := by
    intro s hs
    rw [Finset.mem_Icc] at hs
    refine (smallScores_iff s).1 ?_
    rw [show s = 4096 * c + (s - 4096 * c) by omega]
    refine (category_full hcm (by omega)).2 ⟨by omega, by omega⟩
  have hset : {u ∈ strengths | u.head? = (value ds).head? ∧ u ≤ value ds} = g '' (Finset.Icc (4096 * c + 1) e : Finset Nat) := by
    ext u
    constructor
    · rintro ⟨⟨a, a1, a2, a3, rfl⟩, hh, hle⟩
      refine ⟨(ofCards a).evaluate, ?_, hg a a1 a2 a3⟩
      rw [Finset.mem_coe, Finset.mem_Icc]
      have h1 := (ord a1 a2 a3 h h2 h5).1.1 hle
      rw [small a1 a2 a3, small h h2 h5, Option.some_inj] at hh
      have hh : (ofCards a).evaluate >>> 12 = c := hh
      rw [Nat.shiftRight_eq_div_pow] at hh
      have hb : smallScores.testBit (ofCards a).evaluate = true := (smallScores_iff _).2 ⟨a, a1, a2, a3, rfl⟩
      have hi : (ofCards a).evaluate = 4096 * c + (ofCards a).evaluate % 4096 := by omega
      rw [hi] at hb
      have := (category_full hcm (Nat.mod_lt _ (by decide))).1 hb
      exact ⟨by omega, h1⟩
    · rintro ⟨s, hs, rfl⟩
      have hs : s ∈ Finset.Icc (4096 * c + 1) e := hs
      obtain ⟨a, a1, a2, a3, rfl⟩ := hex s hs
      rw [Finset.mem_Icc] at hs
      rw [hg a a1 a2 a3]
      refine ⟨⟨a, a1, a2, a3, rfl⟩, ?_, (ord a1 a2 a3 h h2 h5).1.2 hs.2⟩
      rw [small a1 a2 a3, small h h2 h5, ← he, ← hc, Nat.shiftRight_eq_div_pow]
      congr 1
      omega
  unfold place
  rw [hset, Set.InjOn.ncard_image, Set.ncard_coe_finset, Nat.card_Icc]
  · omega
  · intro s hs s' hs' hss
    obtain ⟨a, a1, a2, a3, rfl⟩ := hex s hs
    obtain ⟨b, b1, b2, b3, rfl⟩ := hex s' hs'
    rw [hg a a1 a2 a3, hg b b1 b2 b3] at hss
    exact (ord a1 a2 a3 b1 b2 b3).2.1 hss

theorem evaluate_scoreOf {cs : List Nat} (h : IsCards cs) (h2 : 2 ≤ cs.length) (h7 : cs.length ≤ 7) :
    (ofCards cs).evaluate = scoreOf (best cs) := by
  obtain ⟨x, x1, x2, x3, x4, x5⟩ := best_played cs h h2 h7
  obtain ⟨t, ht⟩ := evaluate_category h h2 h7
  have hd : (ofCards cs).evaluate >>> 12 = (ofCards cs).evaluate / 4096 := Nat.shiftRight_eq_div_pow _ _
  unfold scoreOf
  rw [ht]
  show _ = 4096 * ((ofCards cs).evaluate >>> 12) + _
  by_cases h6 : (ofCards cs).evaluate >>> 12 = 6
  · rw [h6] at ht ⊢
    obtain ⟨ds, d1, d2, d3, d4, d5⟩ := flush_partner x1 x2 x3 (x4.trans ht)
    show _ = 4096 * 6 + place (1 :: t)
    have hd1 : (ofCards ds).evaluate >>> 12 = 1 := by
      obtain ⟨u, hu⟩ := evaluate_category d1 d2 (show ds.length ≤ 7 by omega)
      rw [best_small d3, d4] at hu
      exact (List.cons.inj hu).1.symm
    rw [← d4, place_eq d1 d2 d3 (by omega), hd1]
    rw [Nat.shiftRight_eq_div_pow] at hd1
    omega
  · have hu : unsuited ((ofCards cs).evaluate >>> 12 :: t) = value x := by
      rw [x4, ht]
      unfold unsuited
      split
      · rename_i heq; exact absurd (List.cons.inj heq).1 h6
      · rfl
    rw [hu, place_eq x1 x2 x3 (by rw [x5]; exact h6), x5]
    omega

end Pokers.Kernel
