import Verif.Proofs.SuitSymmetry
import Verif.Props.Symmetry
import Verif.Props.Shares
/-!
# Symmetries of the exact calculation (C65)

Exchanging the suits, changing the order of the hands in a range, and equal ranges.
-/
namespace Pokers
open Spec CombinedRange

/-- The range with the suits exchanged. -/
def relabelRange (σ : Nat → Nat) (r : List Combo) : List Combo := r.map fun c => ⟨relabel σ c.c1, relabel σ c.c2, c.w⟩

/-- The card mask `m'` is `m` with the suits exchanged. -/
def MaskRelabelled (σ : Nat → Nat) (m m' : Nat) : Prop := ∀ c < 52, m'.testBit (relabel σ c) = m.testBit c

theorem maskCards_relabel {σ : Nat → Nat} (h : SuitPerm σ) {m m' : Nat} (hm : MaskRelabelled σ m m') :
    (maskCards m').Perm ((maskCards m).map (relabel σ)) := by
  unfold maskCards
  refine (h.deck.symm.filter _).trans (List.Perm.of_eq ?_)
  rw [List.filter_map]
  congr 1
  apply List.filter_congr
  intro c hc
  exact hm c (List.mem_range.1 hc)

theorem specRanges_relabel (σ : Nat → Nat) (ranges : List (List Combo)) :
    specRanges (ranges.map (relabelRange σ)) = (specRanges ranges).map (relabelDeal σ) := by
  unfold specRanges
  rw [List.map_map, List.map_map]
  apply List.map_congr_left
  intro r _
  simp only [Function.comp_apply, relabelRange, relabelDeal, List.map_map]
  rfl

theorem wf_relabel {σ : Nat → Nat} (h : SuitPerm σ) {ranges : List (List Combo)} (hwf : ∀ r ∈ ranges, WfRange r) :
    ∀ r ∈ ranges.map (relabelRange σ), WfRange r := by
  intro r hr
  obtain ⟨r0, hr0, rfl⟩ := List.mem_map.1 hr
  intro c hc
  obtain ⟨c0, hc0, rfl⟩ := List.mem_map.1 hc
  obtain ⟨h1, h2, h3⟩ := hwf r0 hr0 c0 hc0
  exact ⟨h.lt52 h1, h.lt52 h2, fun e => h3 (h.injective e)⟩

theorem wholeShares_relabel {σ : Nat → Nat} (hσ : SuitPerm σ) {ranges : List (List Combo)} {b d b' d' : Nat}
    (hbb : MaskRelabelled σ b b') (hdd : MaskRelabelled σ d d') (hw : WholeShares ranges b d) :
    WholeShares (ranges.map (relabelRange σ)) b' d' := by
  let F : List WHand × List Nat → Nat := fun x => if (winners x.2 x.1).length ∣ Spec.dealWeight x.1 then 0 else 1
  have e : ((showdowns ((specRanges ranges).map (relabelDeal σ)) (maskCards b') (maskCards d')).map F).sum =
      ((showdowns (specRanges ranges) (maskCards b) (maskCards d)).map F).sum := by
    refine sum_relabel hσ (maskCards_relabel hσ hbb) (maskCards_relabel hσ hdd) F F (fun D B B' e => ?_) (fun D B => ?_)
    · simp only [F, winners_board_perm e]
    · simp only [F, winners_relabel hσ (List.Perm.refl _), dealWeight_relabel]
  have e0 : ((showdowns (specRanges ranges) (maskCards b) (maskCards d)).map F).sum = 0 := by
    rw [List.sum_eq_zero_iff]
    intro y hy
    obtain ⟨x, hx, rfl⟩ := List.mem_map.1 hy
    exact if_pos (hw x hx)
  rw [e0, List.sum_eq_zero_iff] at e
  intro x hx
  rw [specRanges_relabel] at hx
  have := e (F x) (List.mem_map_of_mem hx)
  by_contra hn
  simp only [F, if_neg hn] at this
  omega

section
variable {ranges : List (List Combo)} {b d nT nT' : Nat} {cancelled cancelled' : Bool} {r r' : Results} {sent sent' : List Nat}

/-- C65: exchanging the suits in all ranges, on the board and in the dead cards exchanges them in the results: for every hand the wins,
ties, total and tie share, and with up to eight players the wins of each player and the counts of the winner masks. -/
theorem C65_suits {σ : Nat → Nat} (hσ : SuitPerm σ) {b' d' : Nat} (hwf : ∀ r ∈ ranges, WfRange r) (hb : CardMask b) (hd : CardMask d)
    (hb' : CardMask b') (hd' : CardMask d') (hbb : MaskRelabelled σ b b') (hdd : MaskRelabelled σ d d') (hT : 0 < nT) (hT' : 0 < nT')
    (h : ExactEquity ranges b d nT cancelled false (.ok r) sent)
    (h' : ExactEquity (ranges.map (relabelRange σ)) b' d' nT' cancelled' false (.ok r') sent') :
    (∀ p < ranges.length, ∀ x < 52, ∀ y < 52, x ≠ y →
      let u := r.handResults (NUM_HANDS * p + getCardIndex x y)
      let u' := r'.handResults (NUM_HANDS * p + getCardIndex (relabel σ x) (relabel σ y))
      u'.wins = u.wins ∧ u'.ties = u.ties ∧ u'.total = u.total ∧ u'.correctedTies = u.correctedTies) ∧
    (ranges.length ≤ 8 →
      (∀ p < ranges.length, r'.wins p = r.wins p) ∧ ∀ m < 2 ^ ranges.length, r'.winsByMask m = r.winsByMask m) ∧
    (ranges.length ≤ 8 → WholeShares ranges b d → ∀ p < ranges.length, r'.ties p = r.ties p ∧ r'.equities[p]? = r.equities[p]?) := by
  have hwf' := wf_relabel hσ hwf
  have hn : (ranges.map (relabelRange σ)).length = ranges.length := List.length_map _
  have pb := maskCards_relabel hσ hbb
  have pd := maskCards_relabel hσ hdd
  refine ⟨?_, ?_, ?_⟩
  · intro p hp x hx y hy hxy u u'
    obtain ⟨a1, a2, a3, a4⟩ := C31_hands hwf hb hd hT h hp hx hy hxy
    obtain ⟨b1, b2, b3, b4⟩ := C31_hands hwf' hb' hd' hT' h' (p := p) (by rw [hn]; exact hp) (hσ.lt52 hx) (hσ.lt52 hy)
      (fun e => hxy (hσ.injective e))
    simp only [specRanges_relabel] at b1 b2 b3 b4
    refine ⟨b1.trans (Eq.trans ?_ a1.symm), b2.trans (Eq.trans ?_ a2.symm), b3.trans (Eq.trans ?_ a3.symm), b4.trans (Eq.trans ?_ a4.symm)⟩
    · refine weightOf_relabel hσ pb pd _ _ (fun D B B' e => ?_) (fun D B => ?_)
      · simp only [winners_board_perm e]
      · simp only [winners_relabel hσ (List.Perm.refl _), holds_relabel hσ]
    · refine weightOf_relabel hσ pb pd _ _ (fun D B B' e => ?_) (fun D B => ?_)
      · simp only [winners_board_perm e]
      · simp only [winners_relabel hσ (List.Perm.refl _), holds_relabel hσ]
    · refine weightOf_relabel hσ pb pd _ _ (fun D B B' e => Iff.rfl) (fun D B => holds_relabel hσ _ _ _ _)
    · exact handShares_relabel hσ pb pd p x y
  · intro h8
    obtain ⟨a1, a2⟩ := C31_masks hwf hb hd hT h8 h
    obtain ⟨b1, b2⟩ := C31_masks hwf' hb' hd' hT' (by rw [hn]; exact h8) h'
    simp only [specRanges_relabel, hn] at b1 b2
    have key : ∀ ps, winsOf (showdowns ((specRanges ranges).map (relabelDeal σ)) (maskCards b') (maskCards d')) ps =
        winsOf (showdowns (specRanges ranges) (maskCards b) (maskCards d)) ps := fun ps => by
      refine weightOf_relabel hσ pb pd _ _ (fun D B B' e => ?_) (fun D B => ?_)
      · simp only [winners_board_perm e]
      · simp only [winners_relabel hσ (List.Perm.refl _)]
    exact ⟨fun p hp => by rw [b2 p hp, a2 p hp, key], fun m hm => by rw [b1 m hm, a1 m hm, key]⟩
  · intro h8 hw p hp
    obtain ⟨a1, a2⟩ := C61_exact hwf hb hd hT h8 hw h
    obtain ⟨b1, b2⟩ := C61_exact hwf' hb' hd' hT' (by rw [hn]; exact h8) (wholeShares_relabel hσ hbb hdd hw) h'
    simp only [specRanges_relabel, hn] at b1 b2
    have e1 := sharesOf_relabel (rs := specRanges ranges) hσ pb pd p
    have e2 := totalWeight_relabel (rs := specRanges ranges) hσ pb pd
    have e3 : winsOf (showdowns ((specRanges ranges).map (relabelDeal σ)) (maskCards b') (maskCards d')) [p] =
        winsOf (showdowns (specRanges ranges) (maskCards b) (maskCards d)) [p] := by
      refine weightOf_relabel hσ pb pd _ _ (fun D B B' e => ?_) (fun D B => ?_)
      · simp only [winners_board_perm e]
      · simp only [winners_relabel hσ (List.Perm.refl _)]
    exact ⟨by rw [b1 p hp, a1 p hp, e1], by rw [b2 p hp, a2 p hp, e1, e2, e3]⟩

/-- C65: the order in which a range lists its hands is irrelevant to all counts. -/
theorem C65_order {ranges' : List (List Combo)} (hp : List.Forall₂ List.Perm ranges ranges') (hwf : ∀ r ∈ ranges, WfRange r)
    (hb : CardMask b) (hd : CardMask d) (hT : 0 < nT) (hT' : 0 < nT')
    (h : ExactEquity ranges b d nT cancelled false (.ok r) sent) (h' : ExactEquity ranges' b d nT' cancelled' false (.ok r') sent') :
    (∀ p < ranges.length, ∀ x < 52, ∀ y < 52, x ≠ y →
      let u := r.handResults (NUM_HANDS * p + getCardIndex x y)
      let u' := r'.handResults (NUM_HANDS * p + getCardIndex x y)
      u'.wins = u.wins ∧ u'.ties = u.ties ∧ u'.total = u.total ∧ u'.correctedTies = u.correctedTies) ∧
    (ranges.length ≤ 8 →
      (∀ p < ranges.length, r'.wins p = r.wins p) ∧ ∀ m < 2 ^ ranges.length, r'.winsByMask m = r.winsByMask m) ∧
    (ranges.length ≤ 8 → WholeShares ranges b d → ∀ p < ranges.length, r'.ties p = r.ties p ∧ r'.equities[p]? = r.equities[p]?) := by
  have hn := hp.length_eq
  have hwf' : ∀ r ∈ ranges', WfRange r := by
    intro x hx
    obtain ⟨i, hi, rfl⟩ := List.getElem_of_mem hx
    have := (List.forall₂_iff_get.1 hp).2 i (by omega) hi
    intro c hc
    exact hwf _ (List.getElem_mem (by omega : i < ranges.length)) c (this.mem_iff.2 hc)
  have hsd : (showdowns (specRanges ranges) (maskCards b) (maskCards d)).Perm (showdowns (specRanges ranges') (maskCards b) (maskCards d)) := by
    apply showdowns_perm
    unfold specRanges
    rw [List.forall₂_map_left_iff, List.forall₂_map_right_iff]
    exact hp.imp fun x y hxy => hxy.map _
  refine ⟨?_, ?_, ?_⟩
  · intro p hp' x hx y hy hxy u u'
    obtain ⟨a1, a2, a3, a4⟩ := C31_hands hwf hb hd hT h hp' hx hy hxy
    obtain ⟨b1, b2, b3, b4⟩ := C31_hands hwf' hb hd hT' h' (p := p) (by omega) hx hy hxy
    exact ⟨b1.trans ((weightOf_perm hsd _).symm.trans a1.symm), b2.trans ((weightOf_perm hsd _).symm.trans a2.symm),
      b3.trans ((weightOf_perm hsd _).symm.trans a3.symm), b4.trans (((hsd.filter _).map _).sum_eq.symm.trans a4.symm)⟩
  · intro h8
    obtain ⟨a1, a2⟩ := C31_masks hwf hb hd hT h8 h
    obtain ⟨b1, b2⟩ := C31_masks hwf' hb hd hT' (by omega) h'
    rw [← hn] at b1 b2
    exact ⟨fun p hp => (b2 p hp).trans ((weightOf_perm hsd _).symm.trans (a2 p hp).symm),
      fun m hm => (b1 m hm).trans ((weightOf_perm hsd _).symm.trans (a1 m hm).symm)⟩
  · intro h8 hw p hp'
    obtain ⟨a1, a2⟩ := C61_exact hwf hb hd hT h8 hw h
    obtain ⟨b1, b2⟩ := C61_exact hwf' hb hd hT' (by omega) (fun x hx => hw x (hsd.mem_iff.2 hx)) h'
    have e1 : sharesOf (showdowns (specRanges ranges') (maskCards b) (maskCards d)) p =
      sharesOf (showdowns (specRanges ranges) (maskCards b) (maskCards d)) p := ((hsd.filter _).map _).sum_eq.symm
    have e2 : totalWeight (showdowns (specRanges ranges') (maskCards b) (maskCards d)) =
      totalWeight (showdowns (specRanges ranges) (maskCards b) (maskCards d)) := (hsd.map _).sum_eq.symm
    have e3 : winsOf (showdowns (specRanges ranges') (maskCards b) (maskCards d)) [p] =
      winsOf (showdowns (specRanges ranges) (maskCards b) (maskCards d)) [p] := (weightOf_perm hsd _).symm
    exact ⟨by rw [b1 p (by omega), a1 p hp', e1], by rw [b2 p (by omega), a2 p hp', e1, e2, e3]⟩

/-- C65: two players with the same range have the same results: for every hand, and with up to eight players for the player as a whole:
the same wins, and (if no tie share is lost in integer divisions, C61) the same ties and the same equity. -/
theorem C65_same_range (hwf : ∀ r ∈ ranges, WfRange r) (hb : CardMask b) (hd : CardMask d) (hT : 0 < nT)
    (h : ExactEquity ranges b d nT cancelled false (.ok r) sent) {p q : Nat} (hp : p < ranges.length) (hq : q < ranges.length)
    (hpq : ranges[p] = ranges[q]) :
    (∀ x < 52, ∀ y < 52, x ≠ y →
      let u := r.handResults (NUM_HANDS * p + getCardIndex x y)
      let u' := r.handResults (NUM_HANDS * q + getCardIndex x y)
      u'.wins = u.wins ∧ u'.ties = u.ties ∧ u'.total = u.total ∧ u'.correctedTies = u.correctedTies) ∧
    (ranges.length ≤ 8 → r.wins q = r.wins p) ∧
    (ranges.length ≤ 8 → WholeShares ranges b d → r.ties q = r.ties p ∧ r.equities[q]? = r.equities[p]?) := by
  let σ : Nat → Nat := fun i => if i = p then q else if i = q then p else i
  have hσ : PermOn ranges.length σ σ := by
    refine ⟨fun i hi => ?_, fun i hi => ?_, fun i hi => ?_, fun i hi => ?_⟩ <;> simp only [σ] <;> split_ifs <;> omega
  have hperm : permute [] σ ranges = ranges := by
    apply List.ext_getElem (permute_length _ _ _)
    intro i h1 h2
    show ((List.range ranges.length).map fun i => ranges.getD (σ i) [])[i]'(by simpa using h2) = _
    rw [List.getElem_map, List.getElem_range, List.getD_eq_getElem?_getD, List.getElem?_eq_getElem (hσ.lt i h2), Option.getD_some]
    simp only [σ]
    split_ifs with e1 e2
    · subst e1; exact hpq.symm
    · subst e2; exact hpq
    · rfl
  have h' : ExactEquity (permute [] σ ranges) b d nT cancelled false (.ok r) sent := by rw [hperm]; exact h
  obtain ⟨c1, c2⟩ := C49_player_symmetry hwf hb hd hT hT hσ h h'
  have hσq : σ q = p := by simp only [σ]; split_ifs <;> omega
  refine ⟨fun x hx y hy hxy => ?_, fun h8 => ?_, fun h8 hw => ?_⟩
  · have := c1 q hq x hx y hy hxy
    rwa [hσq] at this
  · have := (c2 h8).1 q hq
    rwa [hσq] at this
  · obtain ⟨a1, a2⟩ := C61_exact hwf hb hd hT h8 hw h
    have hs : (specRanges ranges).length = ranges.length := by simp [specRanges]
    have hσ' : PermOn (specRanges ranges).length σ σ := by rw [hs]; exact hσ
    have hsp : permute [] σ (specRanges ranges) = specRanges ranges := by rw [← specRanges_permute, hperm]
    have e1 : sharesOf (showdowns (specRanges ranges) (maskCards b) (maskCards d)) q =
        sharesOf (showdowns (specRanges ranges) (maskCards b) (maskCards d)) p := by
      conv_lhs => rw [← hsp]
      rw [sharesOf_permute hσ' _ _ (by rw [hs]; exact hq), hσq]
    have e2 : winsOf (showdowns (specRanges ranges) (maskCards b) (maskCards d)) [q] =
        winsOf (showdowns (specRanges ranges) (maskCards b) (maskCards d)) [p] := by
      obtain ⟨_, m2⟩ := C31_masks hwf hb hd hT h8 h
      rw [← m2 q hq, ← m2 p hp]
      have := (c2 h8).1 q hq
      rwa [hσq] at this
    exact ⟨by rw [a1 q hq, a1 p hp, e1], by rw [a2 q hq, a2 p hp, e1, e2]⟩

/-- C65: if all players have the same range, with weights for which no tie share is lost (C61) and some showdown of positive weight, all
equities are `1 / n`. -/
theorem C65_equal_ranges (hwf : ∀ r ∈ ranges, WfRange r) (hb : CardMask b) (hd : CardMask d) (hT : 0 < nT) (h8 : ranges.length ≤ 8)
    (hw : WholeShares ranges b d) (hpos : 0 < totalWeight (showdowns (specRanges ranges) (maskCards b) (maskCards d)))
    (h : ExactEquity ranges b d nT cancelled false (.ok r) sent) {R : List Combo} (hR : ∀ x ∈ ranges, x = R) :
    r.equities = List.replicate ranges.length (some (1 / (ranges.length : ℚ))) := by
  obtain ⟨a1, a2⟩ := C61_exact hwf hb hd hT h8 hw h
  obtain ⟨e1, e2⟩ := C33_equities hwf hb hd h
  have h2 : 2 ≤ ranges.length := by
    obtain ⟨s, ds, total, size, flag, r0, hist, D, hrun, _⟩ := exact_run hwf hb hd h
    exact hrun.ready.fields.2.2.2.2.2.1
  have ht : (totalWeight (showdowns (specRanges ranges) (maskCards b) (maskCards d)) : ℚ) ≠ 0 := by
    exact_mod_cast (Nat.pos_iff_ne_zero.1 hpos)
  have hS : 0 < ∑ q ∈ Finset.range ranges.length, ((r.wins q : ℚ) + r.ties q) := by
    by_contra hn
    have := (e2 hn).1
    have h0 := a2 0 (by omega)
    rw [this] at h0
    unfold fdiv at h0
    rw [if_neg ht, List.getElem?_replicate, if_pos (by omega)] at h0
    cases h0
  obtain ⟨es, f1, f2, f3, f4, f5⟩ := e1 hS
  have hsame : ∀ p < ranges.length, es[p]? = es[0]? := fun p hp => by
    have := ((C65_same_range hwf hb hd hT h (p := 0) (q := p) (by omega) hp ((hR _ (List.getElem_mem _)).trans
      (hR _ (List.getElem_mem _)).symm)).2.2 h8 hw).2
    rw [f1, List.getElem?_map, List.getElem?_map] at this
    cases h1 : es[p]? <;> cases h2 : es[0]? <;> rw [h1, h2] at this <;> simp_all
  obtain ⟨e, he⟩ : ∃ e, es[0]? = some e := ⟨_, f5 0 (by omega)⟩
  have hrep : es = List.replicate ranges.length e := by
    rw [List.eq_replicate_iff]
    refine ⟨f2, fun x hx => ?_⟩
    obtain ⟨i, hi, rfl⟩ := List.getElem_of_mem hx
    have := hsame i (by omega)
    rw [he, List.getElem?_eq_getElem hi] at this
    exact Option.some.inj this
  rw [f1, hrep, List.map_replicate]
  congr 2
  rw [hrep, List.sum_replicate, nsmul_eq_mul] at f3
  have hne : (ranges.length : ℚ) ≠ 0 := by exact_mod_cast (by omega : ranges.length ≠ 0)
  field_simp
  linarith

/-- C65: two players with the same range have the equities `1/2`, whatever the weights, whenever any weight was counted. -/
theorem C65_two_equal (hwf : ∀ r ∈ ranges, WfRange r) (hb : CardMask b) (hd : CardMask d) (hT : 0 < nT)
    (h : ExactEquity ranges b d nT cancelled false (.ok r) sent) {R : List Combo} (hR : ranges = [R, R]) :
    r.equities = [some (1 / 2), some (1 / 2)] ∨ r.equities = [none, none] := by
  have hl : ranges.length = 2 := by rw [hR]; rfl
  obtain ⟨e1, e2⟩ := C33_equities hwf hb hd h
  have hw : r.wins 1 = r.wins 0 := (C65_same_range hwf hb hd hT h (p := 0) (q := 1) (by omega) (by omega) (by subst hR; rfl)).2.1 (by omega)
  have ht : r.ties 1 = r.ties 0 := by
    obtain ⟨L, _, _, h3⟩ := C34_integer_division hwf hb hd h
    rw [h3 0 (by omega), h3 1 (by omega), hl]
    congr 2
  rw [hl] at e1 e2
  simp only [Finset.sum_range_succ, Finset.sum_range_zero, zero_add, hw, ht] at e1 e2
  by_cases hS : 0 < (r.wins 0 : ℚ) + r.ties 0 + (r.wins 0 + r.ties 0)
  · left
    obtain ⟨es, f1, f2, f3, f4, f5⟩ := e1 hS
    have g0 := f5 0 (by omega)
    have g1 := f5 1 (by omega)
    rw [hw, ht] at g1
    match es, f2 with
    | [x, y], _ =>
      have gx : x = 1 / 2 := by
        have := Option.some.inj g0
        rw [this]
        have hne : (r.wins 0 : ℚ) + r.ties 0 ≠ 0 := fun e => by rw [e] at hS; simp at hS
        field_simp
        ring
      have gy : y = x := (Option.some.inj g1).trans (Option.some.inj g0).symm
      rw [f1, gy, gx]; rfl
  · right
    exact (e2 hS).1

end

/-- Rotating the suits of aces against kings on a flop meets the hypotheses of `C65_suits`, and both calculations have complete runs. -/
example (nT : Nat) : SuitPerm (fun s => (s + 1) % 4) ∧ MaskRelabelled (fun s => (s + 1) % 4) flopMask (1 <<< 1 ||| 1 <<< 6 ||| 1 <<< 11) ∧
    (∃ r sent, ExactEquity twoHands flopMask 0 nT false false (.ok r) sent) ∧
    ∃ r sent, ExactEquity (twoHands.map (relabelRange fun s => (s + 1) % 4)) (1 <<< 1 ||| 1 <<< 6 ||| 1 <<< 11) 0 nT false false (.ok r) sent := by
  refine ⟨⟨by decide, by decide⟩, by unfold MaskRelabelled; decide, two_run nT false, ?_⟩
  exact run_exists' (by unfold WfRange; decide) (by unfold CardMask; decide) (by unfold CardMask; decide)
    (by decide +kernel) (by decide +kernel) (by decide +kernel) nT false

/-- Two players who both hold a pair of aces or kings, with odd weights. -/
def mirrorHands : List (List Combo) := [[⟨51, 50, 33⟩, ⟨47, 46, 7⟩], [⟨51, 50, 33⟩, ⟨47, 46, 7⟩]]

/-- A board of five cards. -/
def riverMask : Nat := 1 <<< 0 ||| 1 <<< 5 ||| 1 <<< 10 ||| 1 <<< 28 ||| 1 <<< 33

/-- There are runs, and the equities are not NaN, so they are `1/2`; the order of the hands may be changed. -/
example (nT : Nat) (hT : 0 < nT) : ∃ r sent, ExactEquity mirrorHands riverMask 0 nT false false (.ok r) sent ∧
    r.equities = [some (1 / 2), some (1 / 2)] ∧
    List.Forall₂ List.Perm mirrorHands [[⟨47, 46, 7⟩, ⟨51, 50, 33⟩], [⟨51, 50, 33⟩, ⟨47, 46, 7⟩]] := by
  have hwf : ∀ r ∈ mirrorHands, WfRange r := by unfold WfRange mirrorHands; decide
  have hb : CardMask riverMask := by unfold CardMask; decide
  obtain ⟨r, sent, h⟩ := run_exists' hwf hb zero_deck (by decide +kernel) (by decide +kernel) (by decide +kernel) nT false
  refine ⟨r, sent, h, ?_, .cons (List.Perm.swap _ _ _) (.cons (List.Perm.refl _) .nil)⟩
  refine (C65_two_equal hwf hb zero_deck hT h rfl).resolve_right fun hn => ?_
  obtain ⟨e1, e2⟩ := C33_equities hwf hb zero_deck h
  have hwin : 0 < r.wins 0 := by
    rw [(C31_masks hwf hb zero_deck hT (by decide) h).2 0 (by decide)]
    decide +kernel
  have hS : 0 < ∑ q ∈ Finset.range mirrorHands.length, ((r.wins q : ℚ) + r.ties q) := by
    by_contra hc
    have := ((e2 hc).2 0 (by decide)).1
    omega
  obtain ⟨es, f1, f2, _⟩ := e1 hS
  rw [f1] at hn
  match es, f2 with
  | [x, y], _ => simp at hn

end Pokers
