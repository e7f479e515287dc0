import Verif.Props.MonteCarlo
import Verif.Proofs.McMean
import Verif.Spec.Totals
/-!
# C60: every evaluation of the random simulation is a showdown chosen at random, all showdowns being equally likely

The indexes of the first deal are equally likely (`C43_deal`), the combined ranges that are moved afterwards are chosen
independently of the deal, and the boards are equally likely (`C43_probability`).  Here the combined ranges that are moved are
arbitrary but fixed; so the statements hold for every distribution of them.
-/
namespace Pokers
open CombinedRange Sim Spec
open Spec (IsCards)

variable {ranges : List (List Combo)} {b d : Nat} {s : Sim}

/-- The number of boards is the same for all legal deals. -/
theorem boards_length (hwf : ∀ r ∈ ranges, WfRange r) {dd : List WHand}
    (hdd : dd ∈ deals (specRanges ranges) (maskCards b ++ maskCards d)) :
    (boards (maskCards b) (maskCards d) dd).length =
      (((List.range 52).filter fun c => c ∉ maskCards b ++ maskCards d).length - 2 * ranges.length).choose (5 - (maskCards b).length) := by
  obtain ⟨hl, hwf', hcards, hlegal⟩ := deals_wf hwf hdd
  unfold boards completions
  rw [List.length_map, List.length_sublistsLen]
  congr 1
  have hdl : (dealt dd).length = 2 * ranges.length := by
    rw [← hl]
    unfold dealt
    rw [List.length_flatMap]
    simp [cardsOf, Nat.mul_comm]
  have h1 : ((List.range 52).filter fun c => c ∉ maskCards b ++ maskCards d ++ dealt dd) =
      ((List.range 52).filter fun c => c ∉ maskCards b ++ maskCards d).filter fun c => c ∉ dealt dd := by
    rw [List.filter_filter]
    apply List.filter_congr
    intro c _
    rw [Bool.eq_iff_iff, Bool.and_eq_true, decide_eq_true_iff, decide_eq_true_iff, decide_eq_true_iff]
    simp only [List.mem_append]
    tauto
  rw [h1]
  have h2 := List.length_eq_length_filter_add (l := (List.range 52).filter fun c => c ∉ maskCards b ++ maskCards d)
    (fun c => decide (c ∈ dealt dd))
  have h3 : (((List.range 52).filter fun c => c ∉ maskCards b ++ maskCards d).filter fun c => decide (c ∈ dealt dd)).Perm (dealt dd) := by
    rw [List.perm_ext_iff_of_nodup ((List.nodup_range.filter _).filter _) hcards.1]
    intro c
    rw [List.mem_filter, List.mem_filter, decide_eq_true_iff, decide_eq_true_iff, List.mem_range]
    exact ⟨fun h => h.2, fun h => ⟨⟨hcards.2 c h, hlegal c h⟩, h⟩⟩
  rw [h3.length_eq, hdl] at h2
  have h4 : (((List.range 52).filter fun c => c ∉ maskCards b ++ maskCards d).filter fun c => c ∉ dealt dd) =
      ((List.range 52).filter fun c => c ∉ maskCards b ++ maskCards d).filter fun c => !decide (c ∈ dealt dd) := by
    apply List.filter_congr
    intro c _
    rw [decide_not]
  rw [h4]
  omega

/-- `W x` is the walk of a thread that dealt the combos with the indexes `x` and then moved the combined ranges `moves`. -/
def WalkAfter (s : Sim) (moves : List Nat) (x : List Nat) (w : Walk) : Prop :=
  ∃ w0 ds w1, Outside s.combinedRanges w0 ∧ randomizeHoleCards s w0 ds = .ok (true, w1) [] ∧ Points w1 x ∧
    redeals s.combinedRanges moves w1 = some w

theorem McReady.walkAfter (h : McReady ranges b d s) {moves : List Nat} (hm : ∀ i ∈ moves, i < s.combinedRanges.length) {x : List Nat}
    (hx : x ∈ legalIdxs s.combinedRanges (b ||| d)) :
    (∃ w, WalkAfter s moves x w) ∧ ∀ w, WalkAfter s moves x w →
      AtDeal (maskCards b) (maskCards d) w (dealAt s (idxAfter s.combinedRanges (b ||| d) moves x)) ∧
      dealAt s (idxAfter s.combinedRanges (b ||| d) moves x) ∈ deals (specRanges ranges) (maskCards b ++ maskCards d) := by
  have hx := (mem_legalIdxs _ _ x h.crsOk.1.size).1 hx
  constructor
  · obtain ⟨w, picks, h1, h2, h3, h4⟩ := h.walk hx Walk.init (fun _ _ => rfl)
    obtain ⟨w', _, g1, _⟩ := h.redeals moves hm w picks x h2 h4 h3 hx.length
    exact ⟨w', Walk.init, x, w, fun _ _ => rfl, h1, h3, g1⟩
  · rintro w ⟨w0, ds, w1, ho, hr, hp, hw⟩
    obtain ⟨h1, h2⟩ := (randomizeHoleCards_spec s h.crsOk.1 ho ds).2 true w1 [] hr
    obtain ⟨picks, h2⟩ := h2 rfl
    rw [h.fields.2.1, h.fields.2.2.1] at h2
    obtain ⟨w', picks', g1, g2, g3, g4, g5⟩ := h.redeals moves hm w1 picks x h2 h1 hp hx.length
    rw [hw] at g1
    injection g1 with g1
    subst g1
    exact h.atDealAt g2 g3 g4 g5

/-- C60: the walk after any sequence of moves.  Each list `x` of indexes of the first deal leads to a legal deal `D x`, and every legal
deal arises from exactly one `x`.  As all `x` are equally likely, the deal is uniformly distributed at every evaluation. -/
theorem C60_walk (h : McReady ranges b d s) {moves : List Nat} (hm : ∀ i ∈ moves, i < s.combinedRanges.length) :
    ∃ D : List Nat → List WHand,
      (∀ x ∈ legalIdxs s.combinedRanges (b ||| d), (∃ w, WalkAfter s moves x w) ∧
        ∀ w, WalkAfter s moves x w → AtDeal (maskCards b) (maskCards d) w (D x)) ∧
      ((legalIdxs s.combinedRanges (b ||| d)).map D).Perm (deals (specRanges ranges) (maskCards b ++ maskCards d)) := by
  refine ⟨fun x => dealAt s (idxAfter s.combinedRanges (b ||| d) moves x), ?_, ?_⟩
  · intro x hx
    exact ⟨(h.walkAfter hm hx).1, fun w hw => ((h.walkAfter hm hx).2 w hw).1⟩
  · have := (h.idxAfter_perm moves hm).map (dealAt s)
    rw [List.map_map] at this
    exact this.trans h.dealAt_perm

/-- The lists of indexes in `C60_walk` are those for which the attempts of `randomize_hole_cards` succeed. -/
theorem C60_indexes (h : McReady ranges b d s) (x : List Nat) :
    x ∈ legalIdxs s.combinedRanges (b ||| d) ↔ LegalIdx s.combinedRanges (s.boardMask ||| s.deadMask) x := by
  rw [mem_legalIdxs _ _ x h.crsOk.1.size, h.fields.2.1, h.fields.2.2.1]

/-- C60: a board produced at the deal `dd` adds the showdown of `dd` on that board to the thread's counters, and counts one. -/
theorem C60_evaluation (h : McReady ranges b d s) {l : McLocal} {dd : List WHand}
    (hdd : dd ∈ deals (specRanges ranges) (maskCards b ++ maskCards d)) (hat : AtDeal (maskCards b) (maskCards d) l.walk dd)
    {ds rest : Draws} {B : List Nat} (hB : B ∈ boards (maskCards b) (maskCards d) dd)
    (hr : randomizeBoard (5 - s.fixedBoard.count) (l.walk.used ||| s.deadMask) s.fixedBoard ds = .ok (ofCards B) rest) :
    ∃ l', evalDeal s l ds = .ok l' rest ∧ full (l'.stats, l'.hands) = full (l.stats, l.hands) + (sdTally [(dd, B)], 1) := by
  obtain ⟨l', h1, h2, _⟩ := h.evalDeal_board hdd hat hB hr
  exact ⟨l', h1, h2⟩

theorem sum_const_div {α : Type} (l : List α) (f : α → ℝ) (c : ℝ) : (l.map fun x => f x / c).sum = (l.map f).sum / c := by
  induction l with
  | nil => simp
  | cons a l ih => rw [List.map_cons, List.sum_cons, ih, List.map_cons, List.sum_cons, add_div]

theorem hasSum_list {α : Type} (l : List α) (f : α → Nat → ℝ) (a : α → ℝ) (h : ∀ x ∈ l, HasSum (f x) (a x)) :
    HasSum (fun L => (l.map fun x => f x L).sum) (l.map a).sum := by
  induction l with
  | nil => exact hasSum_zero
  | cons x l ih =>
    simp only [List.map_cons, List.sum_cons]
    exact (h x (List.mem_cons_self ..)).add (ih fun y hy => h y (List.mem_cons_of_mem _ hy))

/-- C60: the expected value of any quantity `f` of the showdown at an evaluation is the mean of `f` over all showdowns.  The
probability of a showdown is the probability `1 / |X|` of the indexes `x` of the first deal times the probability of the board, the sum
over the lengths `L` of the draw sequences that produce the board divided by `52 ^ L`. -/
theorem C60_expected (h : McReady ranges b d s) {moves : List Nat} (hm : ∀ i ∈ moves, i < s.combinedRanges.length) (W : List Nat → Walk)
    (hW : ∀ x ∈ legalIdxs s.combinedRanges (b ||| d), WalkAfter s moves x (W x)) :
    let X := legalIdxs s.combinedRanges (b ||| d)
    let sd := showdowns (specRanges ranges) (maskCards b) (maskCards d)
    ∃ D : List Nat → List WHand, (∀ x ∈ X, AtDeal (maskCards b) (maskCards d) (W x) (D x) ∧
        D x ∈ deals (specRanges ranges) (maskCards b ++ maskCards d)) ∧
      ∀ f : List WHand × List Nat → ℝ,
        HasSum (fun L => (X.map fun x => ((boards (maskCards b) (maskCards d) (D x)).map fun B =>
          (1 / (X.length : ℝ)) * ((boardSequences s (W x) B L : ℝ) / 52 ^ L) * f (D x, B)).sum).sum)
          ((sd.map f).sum / sd.length) := by
  intro X sd
  refine ⟨fun x => dealAt s (idxAfter s.combinedRanges (b ||| d) moves x), fun x hx => (h.walkAfter hm hx).2 _ (hW x hx), fun f => ?_⟩
  set D := fun x => dealAt s (idxAfter s.combinedRanges (b ||| d) moves x) with hD
  set N := (((List.range 52).filter fun c => c ∉ maskCards b ++ maskCards d).length - 2 * ranges.length).choose
    (5 - (maskCards b).length) with hN
  have hlen : ∀ dd ∈ deals (specRanges ranges) (maskCards b ++ maskCards d), (boards (maskCards b) (maskCards d) dd).length = N :=
    fun dd hdd => boards_length h.wf hdd
  have hperm : (X.map D).Perm (deals (specRanges ranges) (maskCards b ++ maskCards d)) := by
    have := (h.idxAfter_perm moves hm).map (dealAt s)
    rw [List.map_map] at this
    exact this.trans h.dealAt_perm
  have key : HasSum (fun L => (X.map fun x => ((boards (maskCards b) (maskCards d) (D x)).map fun B =>
      (1 / (X.length : ℝ)) * ((boardSequences s (W x) B L : ℝ) / 52 ^ L) * f (D x, B)).sum).sum)
      (X.map fun x => ((boards (maskCards b) (maskCards d) (D x)).map fun B => f (D x, B) / (X.length * N : ℝ)).sum).sum := by
    refine hasSum_list X (fun x L => ((boards (maskCards b) (maskCards d) (D x)).map fun B =>
      (1 / (X.length : ℝ)) * ((boardSequences s (W x) B L : ℝ) / 52 ^ L) * f (D x, B)).sum) _ fun x hx => ?_
    refine hasSum_list _ (fun B L => (1 / (X.length : ℝ)) * ((boardSequences s (W x) B L : ℝ) / 52 ^ L) * f (D x, B)) _ fun B hB => ?_
    obtain ⟨hat, hdd⟩ := (h.walkAfter hm hx).2 _ (hW x hx)
    have := ((C43_probability h hat hB).mul_left (1 / (X.length : ℝ))).mul_right (f (D x, B))
    rw [hlen _ hdd] at this
    have e : f (D x, B) / (X.length * N : ℝ) = 1 / (X.length : ℝ) * (1 / (N : ℝ)) * f (D x, B) := by
      rw [div_eq_mul_one_div, ← one_div_mul_one_div, mul_comm]
    rw [e]
    exact this
  have hsum : (X.map fun x => ((boards (maskCards b) (maskCards d) (D x)).map fun B => f (D x, B) / (X.length * N : ℝ)).sum).sum =
      (sd.map f).sum / sd.length := by
    have e1 : (X.map fun x => ((boards (maskCards b) (maskCards d) (D x)).map fun B => f (D x, B) / (X.length * N : ℝ)).sum).sum =
        ((X.map D).map fun dd => ((boards (maskCards b) (maskCards d) dd).map fun B => f (dd, B)).sum).sum / (X.length * N : ℝ) := by
      rw [← sum_const_div, List.map_map]
      congr 1
      apply List.map_congr_left
      intro x _
      exact sum_const_div _ _ _
    rw [e1, (hperm.map _).sum_eq]
    have e2 : (sd.map f).sum =
        ((deals (specRanges ranges) (maskCards b ++ maskCards d)).map fun dd =>
          ((boards (maskCards b) (maskCards d) dd).map fun B => f (dd, B)).sum).sum := by
      show ((List.flatMap _ _).map f).sum = _
      rw [List.map_flatMap, List.flatMap_def, List.sum_flatten, List.map_map]
      congr 1
      apply List.map_congr_left
      intro dd _
      show (List.map f (List.map _ _)).sum = _
      rw [List.map_map]
      rfl
    have e3 : sd.length = X.length * N := by
      show (List.flatMap _ _).length = _
      rw [List.length_flatMap, ← List.length_map (as := X) D, hperm.length_eq]
      rw [List.map_congr_left (g := fun _ => N) (fun dd hdd => by rw [List.length_map]; exact hlen dd hdd)]
      simp
    rw [e2, e3]
    push_cast
    rfl
  rw [← hsum]
  exact key

/-- The part of the pot that player `p` wins in a showdown, times the weight of the deal. -/
noncomputable def potPart (p : Nat) (x : List WHand × List Nat) : ℝ :=
  if p ∈ winners x.2 x.1 then (dealWeight x.1 : ℝ) / ((winners x.2 x.1).length : ℝ) else 0

theorem potPart_sum (p : Nat) (sd : List (List WHand × List Nat)) :
    (sd.map (potPart p)).sum = (winsOf sd [p] : ℝ) + ((sharesOf sd p : ℚ) : ℝ) := by
  unfold winsOf sharesOf weightOf
  induction sd with
  | nil => simp
  | cons x sd ih =>
    rw [List.map_cons, List.sum_cons, ih]
    unfold potPart
    by_cases h1 : winners x.2 x.1 = [p]
    · rw [List.filter_cons_of_pos (by simpa using h1), List.filter_cons_of_neg (by simp [h1]), h1]
      simp [add_assoc]
    · rw [List.filter_cons_of_neg (by simpa using h1)]
      by_cases h2 : p ∈ winners x.2 x.1
      · rw [List.filter_cons_of_pos (by simp [h1, h2]), if_pos h2]
        simp only [List.map_cons, List.sum_cons]
        push_cast
        ring
      · rw [List.filter_cons_of_neg (by simp [h2]), if_neg h2, zero_add]

/-- C60: the expected part of the pot of player `p` and the expected weight at an evaluation are in the proportion of the equity: wins plus
shares of ties over all showdowns divided by the total weight of the showdowns. -/
theorem C60_equity (h : McReady ranges b d s) {moves : List Nat} (hm : ∀ i ∈ moves, i < s.combinedRanges.length) (W : List Nat → Walk)
    (hW : ∀ x ∈ legalIdxs s.combinedRanges (b ||| d), WalkAfter s moves x (W x)) :
    let X := legalIdxs s.combinedRanges (b ||| d)
    let sd := showdowns (specRanges ranges) (maskCards b) (maskCards d)
    ∃ D : List Nat → List WHand, (∀ x ∈ X, AtDeal (maskCards b) (maskCards d) (W x) (D x) ∧
        D x ∈ deals (specRanges ranges) (maskCards b ++ maskCards d)) ∧
      let E := fun f : List WHand × List Nat → ℝ => ∑' L, (X.map fun x => ((boards (maskCards b) (maskCards d) (D x)).map fun B =>
          (1 / (X.length : ℝ)) * ((boardSequences s (W x) B L : ℝ) / 52 ^ L) * f (D x, B)).sum).sum
      (sd ≠ [] → E (fun _ => 1) = 1) ∧
      ∀ p, E (potPart p) / E (fun x => (dealWeight x.1 : ℝ)) = ((((winsOf sd [p] : ℚ) + sharesOf sd p) / (totalWeight sd : ℚ) : ℚ) : ℝ) := by
  intro X sd
  obtain ⟨D, h1, h2⟩ := C60_expected h hm W hW
  refine ⟨D, h1, ?_⟩
  intro E
  have hE : ∀ f, E f = (sd.map f).sum / sd.length := fun f => (h2 f).tsum_eq
  clear_value E
  constructor
  · intro hne
    rw [hE]
    have : (sd.length : ℝ) ≠ 0 := by
      exact_mod_cast (List.length_pos_iff.2 hne).ne'
    rw [List.map_const', List.sum_replicate, nsmul_eq_mul, mul_one, div_self this]
  · intro p
    rw [hE, hE, potPart_sum]
    have hw : (sd.map fun x => (dealWeight x.1 : ℝ)).sum = (totalWeight sd : ℝ) := by
      unfold totalWeight
      rw [Nat.cast_list_sum, List.map_map]
      rfl
    rw [hw]
    push_cast
    rcases eq_or_ne sd [] with e | hne
    · have : totalWeight sd = 0 := by rw [e]; rfl
      rw [this]; simp
    · have : (sd.length : ℝ) ≠ 0 := by
        exact_mod_cast (List.length_pos_iff.2 hne).ne'
      exact div_div_div_cancel_right₀ this _ _

/-- Aces against kings on a flop: there is a deal, every sequence of moves of the one combined range leads to a walk, and there are showdowns;
so the hypotheses of the theorems above can be met. -/
example : ∃ s, McReady twoHands flopMask 0 s ∧ legalIdxs s.combinedRanges (flopMask ||| 0) ≠ [] ∧
    (∀ moves : List Nat, (∀ i ∈ moves, i < s.combinedRanges.length) →
      ∃ W : List Nat → Walk, ∀ x ∈ legalIdxs s.combinedRanges (flopMask ||| 0), WalkAfter s moves x (W x)) ∧
    showdowns (specRanges twoHands) (maskCards flopMask) (maskCards 0) ≠ [] := by
  obtain ⟨s, hs⟩ := two_ready
  refine ⟨s, hs, ?_, fun moves hm => ?_, ?_⟩
  · intro e
    have := hs.dealAt_perm.length_eq
    rw [e, List.map_nil, List.length_nil] at this
    exact absurd this (by decide +kernel)
  · classical
    refine ⟨fun x => if hx : x ∈ legalIdxs s.combinedRanges (flopMask ||| 0) then (hs.walkAfter hm hx).1.choose else Walk.init, fun x hx => ?_⟩
    simp only [dif_pos hx]
    exact (hs.walkAfter hm hx).1.choose_spec
  · decide +kernel

end Pokers
