import Verif.Proofs.Laws
import Verif.Props.Shares
import Verif.Props.Totals
/-!
# C96: relations between the results of different calculations

The calculation on a flop against those on all turns, with one more dead card, with a range in two parts, and with other weights.
-/
namespace Pokers
open Spec CombinedRange

/-- A counter of the results: of a hand of a player, or of a set of winners. -/
inductive Counter
  /-- `wins` of the hand `x`, `y` of player `p` -/
  | wins (p x y : Nat)
  /-- `ties` of the hand -/
  | ties (p x y : Nat)
  /-- `corrected_ties` of the hand -/
  | shares (p x y : Nat)
  /-- `total` of the hand -/
  | total (p x y : Nat)
  /-- the entry `i` of `wins_by_mask` -/
  | mask (i : Nat)
  /-- `wins` of player `p` -/
  | alone (p : Nat)

/-- The counters that exist with `n` players. -/
def Counter.Valid (n : Nat) : Counter → Prop
  | .wins p x y | .ties p x y | .shares p x y | .total p x y => p < n ∧ x < 52 ∧ y < 52 ∧ x ≠ y
  | .mask i => i < 2 ^ n
  | .alone p => p < n

/-- The value of a counter in the results. -/
def Counter.value (r : Results) : Counter → ℚ
  | .wins p x y => (r.handResults (NUM_HANDS * p + getCardIndex x y)).wins
  | .ties p x y => (r.handResults (NUM_HANDS * p + getCardIndex x y)).ties
  | .shares p x y => (r.handResults (NUM_HANDS * p + getCardIndex x y)).correctedTies
  | .total p x y => (r.handResults (NUM_HANDS * p + getCardIndex x y)).total
  | .mask i => r.winsByMask i
  | .alone p => r.wins p

/-- What one showdown adds to a counter. -/
def Counter.points : Counter → List WHand × List Nat → ℚ
  | .wins p x y => fun s => if Holds p x y s.1 ∧ winners s.2 s.1 = [p] then Spec.dealWeight s.1 else 0
  | .ties p x y => fun s => if Holds p x y s.1 ∧ p ∈ winners s.2 s.1 ∧ winners s.2 s.1 ≠ [p] then Spec.dealWeight s.1 else 0
  | .shares p x y => fun s => if Holds p x y s.1 ∧ p ∈ winners s.2 s.1 ∧ winners s.2 s.1 ≠ [p] then
      (Spec.dealWeight s.1 : ℚ) / (winners s.2 s.1).length else 0
  | .total p x y => fun s => if Holds p x y s.1 then Spec.dealWeight s.1 else 0
  | .mask i => fun s => if u8Mask (winners s.2 s.1) = i then Spec.dealWeight s.1 else 0
  | .alone p => fun s => if u8Mask (winners s.2 s.1) = 2 ^ p then Spec.dealWeight s.1 else 0

theorem Counter.points_board (k : Counter) : ∀ D B B', B.Perm B' → k.points (D, B) = k.points (D, B') := by
  intro D B B' h
  cases k <;> simp only [Counter.points, winners_board_perm h]

/-- The results of a calculation that was not cancelled; a calculation that found no legal deal counts nothing. -/
def Delivers (ranges : List (List Combo)) (b d nT : Nat) (r : Results) : Prop :=
  (∃ cancelled sent, ExactEquity ranges b d nT cancelled false (.ok r) sent) ∨
  ((∃ cancelled stopped sent, ExactEquity ranges b d nT cancelled stopped (.error .ConflictingRanges) sent) ∧
    r = Results.init ranges.length)

variable {ranges : List (List Combo)} {b d nT : Nat} {r : Results}

theorem weightOf_points (sd : List (List WHand × List Nat)) (P : List WHand × List Nat → Prop) [DecidablePred P] :
    ((weightOf sd P : Nat) : ℚ) = (sd.map fun s => if P s then (Spec.dealWeight s.1 : ℚ) else 0).sum := by
  unfold weightOf
  rw [Nat.cast_list_sum, List.map_map, sum_filter_map]
  simp only [decide_eq_true_iff]
  rfl

theorem Delivers.counts (hwf : ∀ r ∈ ranges, WfRange r) (hb : CardMask b) (hd : CardMask d) (hT : 0 < nT) (h : Delivers ranges b d nT r) :
    CountsOf ranges.length r (showdowns (specRanges ranges) (maskCards b) (maskCards d)) := by
  rcases h with ⟨c, sent, h⟩ | ⟨⟨c, st, sent, h⟩, rfl⟩
  · obtain ⟨s, ds, total, size, flag, r0, hist, D, hrun, hlen⟩ := exact_run hwf hb hd h
    obtain ⟨_, _, _, hall⟩ := hrun.counts
    exact (hall hT rfl).2
  · have he : prepareExact ranges b d = .error .ConflictingRanges := by
      unfold ExactEquity at h
      split at h
      · rename_i e he
        rw [he]
        have := h.1
        injection this with this
        rw [this]
      · obtain ⟨_, _, _, _, _, _, _, _, _, _, _, _, h7, _⟩ := h
        cases h7
    have hs : showdowns (specRanges ranges) (maskCards b) (maskCards d) = [] := by
      unfold showdowns
      rw [C40_sound hwf hb hd he]
      rfl
    rw [hs]
    exact ⟨fun _ _ _ _ _ _ _ => rfl, fun _ _ => rfl, fun _ _ => rfl⟩

/-- Every counter is the sum of the points of all showdowns. -/
theorem Delivers.value (hwf : ∀ r ∈ ranges, WfRange r) (hb : CardMask b) (hd : CardMask d) (hT : 0 < nT) (h : Delivers ranges b d nT r)
    {k : Counter} (hk : k.Valid ranges.length) :
    k.value r = overShows k.points (specRanges ranges) (maskCards b) (maskCards d) := by
  have hc := h.counts hwf hb hd hT
  unfold overShows
  generalize showdowns (specRanges ranges) (maskCards b) (maskCards d) = sd at hc
  cases k with
  | wins p x y =>
    have := hc.hand p hk.1 x hk.2.1 y hk.2.2.1 hk.2.2.2
    exact (congrArg (Nat.cast (R := ℚ)) (congrArg (fun c : Cell => c.1) this)).trans (weightOf_points sd _)
  | ties p x y =>
    have := hc.hand p hk.1 x hk.2.1 y hk.2.2.1 hk.2.2.2
    exact (congrArg (Nat.cast (R := ℚ)) (congrArg (fun c : Cell => c.2.1) this)).trans (weightOf_points sd _)
  | total p x y =>
    have := hc.hand p hk.1 x hk.2.1 y hk.2.2.1 hk.2.2.2
    exact (congrArg (Nat.cast (R := ℚ)) (congrArg (fun c : Cell => c.2.2.1) this)).trans (weightOf_points sd _)
  | shares p x y =>
    have := hc.hand p hk.1 x hk.2.1 y hk.2.2.1 hk.2.2.2
    refine (congrArg (fun c : Cell => c.2.2.2) this).trans ?_
    show handShares sd p x y = _
    unfold handShares
    rw [sum_filter_map]
    simp only [decide_eq_true_iff]
    rfl
  | mask i => exact (congrArg (Nat.cast (R := ℚ)) (hc.mask i hk)).trans (weightOf_points sd _)
  | alone p =>
    exact (congrArg (Nat.cast (R := ℚ)) ((hc.wins p hk).trans (hc.mask (2 ^ p) (Nat.pow_lt_pow_right (by omega) hk)))).trans
      (weightOf_points sd _)

theorem maskCards_set {m c : Nat} (hc : c < 52) (hm : c ∉ maskCards m) : (maskCards (m ||| 2 ^ c)).Perm (c :: maskCards m) := by
  rw [List.perm_ext_iff_of_nodup (maskCards_isCards _).1 (List.nodup_cons.2 ⟨hm, (maskCards_isCards m).1⟩)]
  intro x
  rw [List.mem_cons]
  by_cases hx : x < 52
  · rw [mem_maskCards hx, mem_maskCards hx, Nat.testBit_or, Bool.or_eq_true, Nat.testBit_two_pow, decide_eq_true_iff]
    constructor
    · rintro (h | h)
      · exact Or.inr h
      · exact Or.inl h.symm
    · rintro (h | h)
      · exact Or.inr h.symm
      · exact Or.inl h
  · constructor
    · intro h; exact absurd ((maskCards_isCards _).2 x h) hx
    · rintro (h | h)
      · omega
      · exact absurd ((maskCards_isCards _).2 x h) hx

theorem cardMask_set {m c : Nat} (hm : CardMask m) (hc : c < 52) : CardMask (m ||| 2 ^ c) := by
  unfold CardMask at hm ⊢
  exact Nat.or_lt_two_pow hm (Nat.pow_lt_pow_right (by decide) (by omega))

/-- The calculation reports counts unless the input is refused or the number of deals overflows. -/
theorem delivers_exists (hwf : ∀ r ∈ ranges, WfRange r) (hb : CardMask b) (hd : CardMask d) (hv : validate ranges.length b d = none)
    (hprod : ((fromRanges (ranges.map fun h => removeConflictingCombos h b d)).map (·.size)).prod + 2000000 < 2 ^ 64) (nT : Nat) :
    ∃ r, Delivers ranges b d nT r := by
  by_cases hsz : ((fromRanges (ranges.map fun h => removeConflictingCombos h b d)).any fun cr => cr.size == 0) = true
  · have he : prepareExact ranges b d = .error .ConflictingRanges := by
      unfold prepareExact
      rw [hv]
      exact if_pos hsz
    refine ⟨_, Or.inr ⟨⟨false, false, [], ?_⟩, rfl⟩⟩
    unfold ExactEquity
    rw [he]
    simp
  · obtain ⟨r, sent, h⟩ := run_exists' hwf hb hd hv (by simpa using hsz) hprod nT false
    exact ⟨r, Or.inl ⟨false, sent, h⟩⟩

/-- C96: every counter, added up over all cards that can come next on the board, is the counter before the card, once for each
card that is still missing. -/
theorem C96_streets (hwf : ∀ r ∈ ranges, WfRange r) (hb : CardMask b) (hd : CardMask d) (hT : 0 < nT)
    (h5 : (maskCards b).length < 5) (h : Delivers ranges b d nT r) {R : Nat → Results} {T : Nat → Nat} (hT' : ∀ c, 0 < T c)
    (hR : ∀ c < 52, c ∉ maskCards b ++ maskCards d → Delivers ranges (b ||| 2 ^ c) d (T c) (R c))
    {k : Counter} (hk : k.Valid ranges.length) :
    ((leftCards (maskCards b ++ maskCards d)).map fun c => k.value (R c)).sum =
      ((5 - (maskCards b).length : Nat) : ℚ) * k.value r := by
  have e : ((leftCards (maskCards b ++ maskCards d)).map fun c => k.value (R c)) =
      (leftCards (maskCards b ++ maskCards d)).map fun c =>
        overShows k.points (specRanges ranges) (c :: maskCards b) (maskCards d) := by
    apply List.map_congr_left
    intro c hc
    obtain ⟨h1, h2⟩ := mem_leftCards.1 hc
    rw [(hR c h1 h2).value hwf (cardMask_set hb h1) hd (hT' c) hk]
    exact overShows_board k.points_board _ (maskCards_set h1 fun hm => h2 (by simp [hm])) (List.Perm.refl _)
  rw [e, overShows_street k.points_board _ _ _ h5, h.value hwf hb hd hT hk, nsmul_eq_mul]

/-- C96: every counter, added up over all cards that one could see burnt, is the counter without that knowledge, once for each
card that is neither dealt nor on the board in the end. -/
theorem C96_burnt (hwf : ∀ r ∈ ranges, WfRange r) (hb : CardMask b) (hd : CardMask d) (hT : 0 < nT)
    (h : Delivers ranges b d nT r) {R : Nat → Results} {T : Nat → Nat} (hT' : ∀ c, 0 < T c)
    (hR : ∀ c < 52, c ∉ maskCards b ++ maskCards d → Delivers ranges b (d ||| 2 ^ c) (T c) (R c))
    {k : Counter} (hk : k.Valid ranges.length) :
    ((leftCards (maskCards b ++ maskCards d)).map fun c => k.value (R c)).sum =
      (((leftCards (maskCards b ++ maskCards d)).length - 2 * ranges.length - (5 - (maskCards b).length) : Nat) : ℚ) * k.value r := by
  have e : ((leftCards (maskCards b ++ maskCards d)).map fun c => k.value (R c)) =
      (leftCards (maskCards b ++ maskCards d)).map fun c =>
        overShows k.points (specRanges ranges) (maskCards b) (c :: maskCards d) := by
    apply List.map_congr_left
    intro c hc
    obtain ⟨h1, h2⟩ := mem_leftCards.1 hc
    rw [(hR c h1 h2).value hwf hb (cardMask_set hd h1) (hT' c) hk]
    exact overShows_board k.points_board _ (List.Perm.refl _) (maskCards_set h1 fun hm => h2 (by simp [hm]))
  have hN : ∀ D ∈ deals (specRanges ranges) (maskCards b ++ maskCards d),
      (leftCards (maskCards b ++ maskCards d ++ dealt D)).length =
        (leftCards (maskCards b ++ maskCards d)).length - 2 * ranges.length := by
    intro D hD
    obtain ⟨hl, _, hcards, hlegal⟩ := deals_wf hwf hD
    have hdl : (dealt D).length = 2 * ranges.length := by
      rw [← hl]
      unfold dealt
      rw [List.length_flatMap]
      simp [cardsOf, Nat.mul_comm]
    have h2 := List.length_eq_length_filter_add (l := leftCards (maskCards b ++ maskCards d)) (fun c => decide (c ∈ dealt D))
    have h3 : ((leftCards (maskCards b ++ maskCards d)).filter fun c => decide (c ∈ dealt D)).Perm (dealt D) := by
      rw [List.perm_ext_iff_of_nodup ((leftCards_nodup _).filter _) hcards.1]
      intro c
      rw [List.mem_filter, mem_leftCards, decide_eq_true_iff]
      exact ⟨fun h => h.2, fun h => ⟨⟨hcards.2 c h, hlegal c h⟩, h⟩⟩
    rw [h3.length_eq, hdl] at h2
    rw [leftCards_append]
    have h4 : ((leftCards (maskCards b ++ maskCards d)).filter fun c => decide (c ∉ dealt D)) =
        (leftCards (maskCards b ++ maskCards d)).filter fun c => !decide (c ∈ dealt D) := by
      apply List.filter_congr
      intro c _
      rw [decide_not]
    rw [h4]
    omega
  rw [e, overShows_burn _ _ _ _ hN, h.value hwf hb hd hT hk, nsmul_eq_mul]

/-- C96: if the range of a player is given in two parts, every counter is the sum of the counters for the parts. -/
theorem C96_parts {pre post : List (List Combo)} {Q Q' : List Combo} {r1 r2 : Results} {nT1 nT2 : Nat}
    (hwf : ∀ r ∈ pre ++ (Q ++ Q') :: post, WfRange r) (hb : CardMask b) (hd : CardMask d) (hT : 0 < nT) (hT1 : 0 < nT1) (hT2 : 0 < nT2)
    (h : Delivers (pre ++ (Q ++ Q') :: post) b d nT r) (h1 : Delivers (pre ++ Q :: post) b d nT1 r1)
    (h2 : Delivers (pre ++ Q' :: post) b d nT2 r2) {k : Counter} (hk : k.Valid (pre.length + 1 + post.length)) :
    k.value r = k.value r1 + k.value r2 := by
  have hl : ∀ X : List Combo, (pre ++ X :: post).length = pre.length + 1 + post.length := fun X => by simp; omega
  have hw : ∀ X : List Combo, (∀ c ∈ X, c ∈ Q ++ Q') → ∀ r ∈ pre ++ X :: post, WfRange r := by
    intro X hX r hr
    rcases List.mem_append.1 hr with hr | hr
    · exact hwf r (by simp [hr])
    · rcases List.mem_cons.1 hr with rfl | hr
      · intro c hc
        exact hwf (Q ++ Q') (by simp) c (hX c hc)
      · exact hwf r (by simp [hr])
  have hs : ∀ X : List Combo, specRanges (pre ++ X :: post) = specRanges pre ++ X.map toHole :: specRanges post := fun X => by
    simp [specRanges]
  rw [h.value hwf hb hd hT (by rw [hl]; exact hk), h1.value (hw Q (by simp +contextual)) hb hd hT1 (by rw [hl]; exact hk),
    h2.value (hw Q' (by simp +contextual)) hb hd hT2 (by rw [hl]; exact hk), hs, hs, hs, List.map_append]
  exact overShows_split _ _ _ _ _ _ _

/-- The range with `m` times its weights. -/
def scaleRange (m : Nat) (Q : List Combo) : List Combo := Q.map fun c => { c with w := m * c.w }

theorem wf_scale {pre post : List (List Combo)} {Q : List Combo} {m : Nat} (hwf : ∀ r ∈ pre ++ Q :: post, WfRange r) :
    ∀ r ∈ pre ++ scaleRange m Q :: post, WfRange r := by
  intro r hr
  rcases List.mem_append.1 hr with hr | hr
  · exact hwf r (by simp [hr])
  · rcases List.mem_cons.1 hr with rfl | hr
    · intro c hc
      obtain ⟨c0, hc0, rfl⟩ := List.mem_map.1 hc
      exact hwf Q (by simp) c0 hc0
    · exact hwf r (by simp [hr])

theorem Counter.points_scale (k : Counter) (m : Nat) {p : Nat} {D : List WHand} (hp : p < D.length) (B : List Nat) :
    k.points (D.modify p (scaleHand m), B) = m • k.points (D, B) := by
  rw [nsmul_eq_mul]
  cases k <;> simp only [Counter.points, winners_scale, holds_scale, dealWeight_scale m hp, Nat.cast_mul, mul_ite, mul_zero, mul_div_assoc]

/-- C96: if the weights of one range are multiplied by a number, so is every counter. -/
theorem C96_weights {pre post : List (List Combo)} {Q : List Combo} {m : Nat} {r1 : Results} {nT1 : Nat}
    (hwf : ∀ r ∈ pre ++ Q :: post, WfRange r) (hb : CardMask b) (hd : CardMask d) (hT : 0 < nT) (hT1 : 0 < nT1)
    (h : Delivers (pre ++ Q :: post) b d nT r) (h1 : Delivers (pre ++ scaleRange m Q :: post) b d nT1 r1)
    {k : Counter} (hk : k.Valid (pre.length + 1 + post.length)) : k.value r1 = m * k.value r := by
  have hl : ∀ X : List Combo, (pre ++ X :: post).length = pre.length + 1 + post.length := fun X => by simp; omega
  have hs : ∀ X : List Combo, specRanges (pre ++ X :: post) = specRanges pre ++ X.map toHole :: specRanges post := fun X => by
    simp [specRanges]
  have hm : (scaleRange m Q).map toHole = (Q.map toHole).map (scaleHand m) := by
    unfold scaleRange
    rw [List.map_map, List.map_map]
    rfl
  rw [h.value hwf hb hd hT (by rw [hl]; exact hk), h1.value (wf_scale hwf) hb hd hT1 (by rw [hl]; exact hk), hs, hs, hm, ← nsmul_eq_mul]
  refine overShows_scale _ _ _ _ _ (fun D B hD => ?_)
  have hpl : (specRanges pre).length = pre.length := by simp [specRanges]
  exact k.points_scale m (by omega) B

/-! ## Equities -/

/-- What one showdown brings player `p`. -/
def potPoints (p : Nat) : List WHand × List Nat → ℚ := fun s =>
  (if winners s.2 s.1 = [p] then (Spec.dealWeight s.1 : ℚ) else 0) +
    if p ∈ winners s.2 s.1 ∧ winners s.2 s.1 ≠ [p] then (Spec.dealWeight s.1 : ℚ) / (winners s.2 s.1).length else 0

/-- The weight of a showdown. -/
def allPoints : List WHand × List Nat → ℚ := fun s => Spec.dealWeight s.1

theorem potPoints_board (p : Nat) : ∀ D B B', B.Perm B' → potPoints p (D, B) = potPoints p (D, B') := by
  intro D B B' h
  simp only [potPoints, winners_board_perm h]

/-- The total weight of the showdowns that were counted. -/
def totalCount (n : Nat) (r : Results) : ℚ := ((∑ i ∈ Finset.range (2 ^ n), r.winsByMask i : Nat) : ℚ)

theorem Delivers.total (hwf : ∀ r ∈ ranges, WfRange r) (hb : CardMask b) (hd : CardMask d) (hT : 0 < nT) (h9 : ranges.length ≤ 9)
    (h : Delivers ranges b d nT r) :
    totalCount ranges.length r = overShows allPoints (specRanges ranges) (maskCards b) (maskCards d) := by
  unfold totalCount
  rw [(h.counts hwf hb hd hT).maskSum (showdowns_length hwf) h9]
  unfold totalWeight overShows
  rw [Nat.cast_list_sum, List.map_map]
  rfl

theorem Delivers.equity (hwf : ∀ r ∈ ranges, WfRange r) (hb : CardMask b) (hd : CardMask d) (hT : 0 < nT) (h8 : ranges.length ≤ 8)
    (hw : WholeShares ranges b d) (h : Delivers ranges b d nT r) (h0 : totalCount ranges.length r ≠ 0) {p : Nat} (hp : p < ranges.length) :
    r.equities[p]? = some (some (overShows (potPoints p) (specRanges ranges) (maskCards b) (maskCards d) / totalCount ranges.length r)) := by
  have ht := h.total hwf hb hd hT (by omega)
  rcases h with ⟨c, sent, h⟩ | ⟨_, rfl⟩
  · rw [(C61_exact hwf hb hd hT h8 hw h).2 p hp]
    have e1 : (totalWeight (showdowns (specRanges ranges) (maskCards b) (maskCards d)) : ℚ) = totalCount ranges.length r := by
      rw [ht]
      unfold totalWeight overShows
      rw [Nat.cast_list_sum, List.map_map]
      rfl
    have e2 : (winsOf (showdowns (specRanges ranges) (maskCards b) (maskCards d)) [p] : ℚ) +
        sharesOf (showdowns (specRanges ranges) (maskCards b) (maskCards d)) p =
        overShows (potPoints p) (specRanges ranges) (maskCards b) (maskCards d) := by
      unfold overShows potPoints winsOf sharesOf
      rw [List.sum_map_add, weightOf_points, sum_filter_map]
      simp only [decide_eq_true_iff]
    rw [e1, e2]
    unfold fdiv
    rw [if_neg h0]
  · exact absurd (by simp [totalCount, Results.init]) h0

/-- Without any weight nobody wins anything. -/
theorem pot_zero {R : List (List WHand)} {board dead : List Nat} (h : overShows allPoints R board dead = 0) (p : Nat) :
    overShows (potPoints p) R board dead = 0 := by
  have h' : ((showdowns R board dead).map fun x => Spec.dealWeight x.1).sum = 0 := by
    have : (((showdowns R board dead).map fun x => Spec.dealWeight x.1).sum : ℚ) = 0 := by
      rw [← h, Nat.cast_list_sum, List.map_map]
      rfl
    exact_mod_cast this
  rw [List.sum_eq_zero_iff] at h'
  unfold overShows
  apply List.sum_eq_zero
  intro y hy
  obtain ⟨x, hx, rfl⟩ := List.mem_map.1 hy
  have := h' _ (List.mem_map_of_mem hx)
  simp [potPoints, this]

/-- The condition on the weights holds on the next street if it holds before. -/
theorem wholeShares_street (hw : WholeShares ranges b d) (h5 : (maskCards b).length < 5) {c : Nat} (hc : c < 52)
    (hm : c ∉ maskCards b ++ maskCards d) : WholeShares ranges (b ||| 2 ^ c) d := by
  let F : List WHand × List Nat → Nat := fun x => if (winners x.2 x.1).length ∣ Spec.dealWeight x.1 then 0 else 1
  have hF : ∀ D B B', B.Perm B' → F (D, B) = F (D, B') := fun D B B' e => by simp only [F, winners_board_perm e]
  have e := overShows_street hF (specRanges ranges) (maskCards b) (maskCards d) h5
  have e0 : overShows F (specRanges ranges) (maskCards b) (maskCards d) = 0 := by
    unfold overShows
    rw [List.sum_eq_zero_iff]
    intro y hy
    obtain ⟨x, hx, rfl⟩ := List.mem_map.1 hy
    exact if_pos (hw x hx)
  rw [e0, smul_zero, List.sum_eq_zero_iff] at e
  have e1 := e _ (List.mem_map_of_mem (mem_leftCards.2 ⟨hc, hm⟩))
  rw [← overShows_board hF _ (maskCards_set hc fun h => hm (by simp [h])) (List.Perm.refl _)] at e1
  unfold overShows at e1
  rw [List.sum_eq_zero_iff] at e1
  intro x hx
  have := e1 (F x) (List.mem_map_of_mem hx)
  by_contra hn
  simp only [F, if_neg hn] at this
  omega

/-- C96: the equity before a card of the board is the average of the equities after it, weighted with the totals. -/
theorem C96_average (hwf : ∀ r ∈ ranges, WfRange r) (hb : CardMask b) (hd : CardMask d) (hT : 0 < nT) (h8 : ranges.length ≤ 8)
    (hw : WholeShares ranges b d) (h5 : (maskCards b).length < 5) (h : Delivers ranges b d nT r)
    (h0 : totalCount ranges.length r ≠ 0) {R : Nat → Results} {T : Nat → Nat} (hT' : ∀ c, 0 < T c)
    (hR : ∀ c < 52, c ∉ maskCards b ++ maskCards d → Delivers ranges (b ||| 2 ^ c) d (T c) (R c)) {p : Nat} (hp : p < ranges.length)
    {e : Nat → ℚ} (he : ∀ c < 52, c ∉ maskCards b ++ maskCards d → totalCount ranges.length (R c) ≠ 0 →
      (R c).equities[p]? = some (some (e c))) :
    r.equities[p]? = some (some (((leftCards (maskCards b ++ maskCards d)).map fun c => totalCount ranges.length (R c) * e c).sum /
      ((leftCards (maskCards b ++ maskCards d)).map fun c => totalCount ranges.length (R c)).sum)) := by
  have e1 : ((leftCards (maskCards b ++ maskCards d)).map fun c => totalCount ranges.length (R c) * e c) =
      (leftCards (maskCards b ++ maskCards d)).map fun c =>
        overShows (potPoints p) (specRanges ranges) (c :: maskCards b) (maskCards d) := by
    apply List.map_congr_left
    intro c hc
    obtain ⟨h1, h2⟩ := mem_leftCards.1 hc
    have hcb : c ∉ maskCards b := fun hm => h2 (by simp [hm])
    rw [← overShows_board (potPoints_board p) _ (maskCards_set h1 hcb) (List.Perm.refl (maskCards d))]
    by_cases hz : totalCount ranges.length (R c) = 0
    · rw [hz, zero_mul]
      rw [(hR c h1 h2).total hwf (cardMask_set hb h1) hd (hT' c) (by omega)] at hz
      exact (pot_zero hz p).symm
    · have h3 := (hR c h1 h2).equity hwf (cardMask_set hb h1) hd (hT' c) h8 (wholeShares_street hw h5 h1 h2) hz hp
      rw [he c h1 h2 hz] at h3
      have h4 := Option.some.inj (Option.some.inj h3)
      rw [h4, mul_div_cancel₀ _ hz]
  have e2 : ((leftCards (maskCards b ++ maskCards d)).map fun c => totalCount ranges.length (R c)) =
      (leftCards (maskCards b ++ maskCards d)).map fun c =>
        overShows allPoints (specRanges ranges) (c :: maskCards b) (maskCards d) := by
    apply List.map_congr_left
    intro c hc
    obtain ⟨h1, h2⟩ := mem_leftCards.1 hc
    have hcb : c ∉ maskCards b := fun hm => h2 (by simp [hm])
    rw [(hR c h1 h2).total hwf (cardMask_set hb h1) hd (hT' c) (by omega)]
    exact overShows_board (fun _ _ _ _ => rfl) _ (maskCards_set h1 hcb) (List.Perm.refl _)
  rw [e1, e2, overShows_street (potPoints_board p) _ _ _ h5, overShows_street (f := allPoints) (fun _ _ _ _ => rfl) _ _ _ h5,
    h.equity hwf hb hd hT h8 hw h0 hp, h.total hwf hb hd hT (by omega), nsmul_eq_mul, nsmul_eq_mul, mul_div_mul_left]
  have : 5 - (maskCards b).length ≠ 0 := by omega
  exact_mod_cast this

/-- C96: multiplying the weights of one range by a positive number leaves the equities as they are. -/
theorem C96_same_equity {pre post : List (List Combo)} {Q : List Combo} {m : Nat} {r1 : Results} {nT1 : Nat} (hm : 0 < m)
    (hwf : ∀ r ∈ pre ++ Q :: post, WfRange r) (hb : CardMask b) (hd : CardMask d) (hT : 0 < nT) (hT1 : 0 < nT1)
    (h8 : (pre ++ Q :: post).length ≤ 8) (hw : WholeShares (pre ++ Q :: post) b d)
    (h : Delivers (pre ++ Q :: post) b d nT r) (h1 : Delivers (pre ++ scaleRange m Q :: post) b d nT1 r1)
    (h0 : totalCount (pre ++ Q :: post).length r ≠ 0) {p : Nat} (hp : p < (pre ++ Q :: post).length) :
    r1.equities[p]? = r.equities[p]? := by
  have hl : (pre ++ scaleRange m Q :: post).length = (pre ++ Q :: post).length := by simp
  have hwf1 := wf_scale (m := m) hwf
  have hs : ∀ X : List Combo, specRanges (pre ++ X :: post) = specRanges pre ++ X.map toHole :: specRanges post := fun X => by
    simp [specRanges]
  have hpl : (specRanges pre).length = pre.length := by simp [specRanges]
  have hsc : (scaleRange m Q).map toHole = (Q.map toHole).map (scaleHand m) := by
    unfold scaleRange
    rw [List.map_map, List.map_map]
    rfl
  have e1 : overShows (potPoints p) (specRanges (pre ++ scaleRange m Q :: post)) (maskCards b) (maskCards d) =
      m • overShows (potPoints p) (specRanges (pre ++ Q :: post)) (maskCards b) (maskCards d) := by
    rw [hs, hs, hsc]
    refine overShows_scale _ _ _ _ _ (fun D B hD => ?_)
    rw [nsmul_eq_mul]
    simp only [potPoints, winners_scale, dealWeight_scale m (show (specRanges pre).length < D.length by omega), Nat.cast_mul, mul_add,
      mul_ite, mul_zero, mul_div_assoc]
  have e2 : overShows allPoints (specRanges (pre ++ scaleRange m Q :: post)) (maskCards b) (maskCards d) =
      m • overShows allPoints (specRanges (pre ++ Q :: post)) (maskCards b) (maskCards d) := by
    rw [hs, hs, hsc]
    refine overShows_scale _ _ _ _ _ (fun D B hD => ?_)
    rw [nsmul_eq_mul]
    simp only [allPoints, dealWeight_scale m (show (specRanges pre).length < D.length by omega), Nat.cast_mul]
  have hm' : (m : ℚ) ≠ 0 := by exact_mod_cast hm.ne'
  have ht := h.total hwf hb hd hT (by omega)
  have ht1 := h1.total hwf1 hb hd hT1 (by omega)
  rw [e2, nsmul_eq_mul, ← ht] at ht1
  have hw1 : WholeShares (pre ++ scaleRange m Q :: post) b d := by
    let F : List WHand × List Nat → Nat := fun x => if (winners x.2 x.1).length ∣ Spec.dealWeight x.1 then 0 else 1
    let G : List WHand × List Nat → Nat := fun x => if (winners x.2 x.1).length ∣ m * Spec.dealWeight x.1 then 0 else 1
    have e : overShows F (specRanges (pre ++ scaleRange m Q :: post)) (maskCards b) (maskCards d) = 0 := by
      rw [hs, hsc, overShows_weights (g := G) _ _ _ _ _ (fun D B hD => by
        simp only [F, G, winners_scale, dealWeight_scale m (show (specRanges pre).length < D.length by omega)]), ← hs]
      unfold overShows
      rw [List.sum_eq_zero_iff]
      intro y hy
      obtain ⟨x, hx, rfl⟩ := List.mem_map.1 hy
      exact if_pos ((hw x hx).mul_left m)
    unfold overShows at e
    rw [List.sum_eq_zero_iff] at e
    intro x hx
    have := e (F x) (List.mem_map_of_mem hx)
    by_contra hn
    simp only [F, if_neg hn] at this
    omega
  rw [h1.equity hwf1 hb hd hT1 (by omega) hw1 (by rw [ht1]; exact mul_ne_zero hm' h0) (by omega), h.equity hwf hb hd hT h8 hw h0 hp, e1, ht1,
    nsmul_eq_mul, mul_div_mul_left _ _ hm']

/-! ## Examples -/

theorem two_wf : ∀ r ∈ twoHands, WfRange r := by unfold WfRange twoHands; decide

theorem two_delivers (nT : Nat) : ∃ r, Delivers twoHands flopMask 0 nT r := by
  obtain ⟨r, sent, h⟩ := two_run nT false
  exact ⟨r, Or.inl ⟨false, sent, h⟩⟩

/-- The calculations for all turns, also for those that take a card of a player: then no deal is legal. -/
theorem turn_delivers (nT : Nat) : ∃ R : Nat → Results, ∀ c < 52, c ∉ maskCards flopMask ++ maskCards 0 →
    Delivers twoHands (flopMask ||| 2 ^ c) 0 nT (R c) := by
  have h : ∀ c < 52, c ∉ maskCards flopMask ++ maskCards 0 → validate twoHands.length (flopMask ||| 2 ^ c) 0 = none ∧
      ((fromRanges (twoHands.map fun h => removeConflictingCombos h (flopMask ||| 2 ^ c) 0)).map (·.size)).prod + 2000000 < 2 ^ 64 := by
    decide +kernel
  have hR : ∀ c, ∃ r, c < 52 → c ∉ maskCards flopMask ++ maskCards 0 → Delivers twoHands (flopMask ||| 2 ^ c) 0 nT r := by
    intro c
    by_cases h1 : c < 52
    · by_cases h2 : c ∉ maskCards flopMask ++ maskCards 0
      · obtain ⟨hv, hp⟩ := h c h1 h2
        obtain ⟨r, hr⟩ := delivers_exists two_wf (cardMask_set (by unfold CardMask; decide) h1) zero_deck hv hp nT
        exact ⟨r, fun _ _ => hr⟩
      · exact ⟨Results.init 0, fun _ h => absurd h h2⟩
    · exact ⟨Results.init 0, fun h => absurd h h1⟩
  choose R hR using hR
  exact ⟨R, fun c h1 h2 => hR c h1 h2⟩

/-- The wins of the aces after all turns add up to twice the wins on the flop. -/
example (nT : Nat) (hT : 0 < nT) : ∃ (r : Results) (R : Nat → Results), Delivers twoHands flopMask 0 nT r ∧
    ((leftCards (maskCards flopMask ++ maskCards 0)).map fun c => ((R c).wins 0 : ℚ)).sum = 2 * (r.wins 0 : ℚ) := by
  obtain ⟨r, h⟩ := two_delivers nT
  obtain ⟨R, hR⟩ := turn_delivers nT
  refine ⟨r, R, h, ?_⟩
  have := C96_streets two_wf (by unfold CardMask; decide) zero_deck hT (by decide) h (T := fun _ => nT) (fun _ => hT) hR
    (k := .alone 0) (by unfold Counter.Valid; decide)
  rw [show 5 - (maskCards flopMask).length = 2 from by decide] at this
  simpa only [Counter.value, Nat.cast_ofNat] using this

/-- The calculations with one more dead card. -/
theorem burn_delivers (nT : Nat) : ∃ R : Nat → Results, ∀ c < 52, c ∉ maskCards flopMask ++ maskCards 0 →
    Delivers twoHands flopMask (0 ||| 2 ^ c) nT (R c) := by
  have h : ∀ c < 52, c ∉ maskCards flopMask ++ maskCards 0 → validate twoHands.length flopMask (0 ||| 2 ^ c) = none ∧
      ((fromRanges (twoHands.map fun h => removeConflictingCombos h flopMask (0 ||| 2 ^ c))).map (·.size)).prod + 2000000 < 2 ^ 64 := by
    decide +kernel
  have hR : ∀ c, ∃ r, c < 52 → c ∉ maskCards flopMask ++ maskCards 0 → Delivers twoHands flopMask (0 ||| 2 ^ c) nT r := by
    intro c
    by_cases h1 : c < 52
    · by_cases h2 : c ∉ maskCards flopMask ++ maskCards 0
      · obtain ⟨hv, hp⟩ := h c h1 h2
        obtain ⟨r, hr⟩ := delivers_exists two_wf (by unfold CardMask; decide) (cardMask_set zero_deck h1) hv hp nT
        exact ⟨r, fun _ _ => hr⟩
      · exact ⟨Results.init 0, fun _ h => absurd h h2⟩
    · exact ⟨Results.init 0, fun h => absurd h h1⟩
  choose R hR using hR
  exact ⟨R, fun c h1 h2 => hR c h1 h2⟩

/-- 49 cards are left on the flop; four are dealt and two come on the board, so each showdown leaves 43 cards to burn. -/
example (nT : Nat) (hT : 0 < nT) : ∃ (r : Results) (R : Nat → Results), Delivers twoHands flopMask 0 nT r ∧
    ((leftCards (maskCards flopMask ++ maskCards 0)).map fun c => ((R c).wins 0 : ℚ)).sum = 43 * (r.wins 0 : ℚ) := by
  obtain ⟨r, h⟩ := two_delivers nT
  obtain ⟨R, hR⟩ := burn_delivers nT
  refine ⟨r, R, h, ?_⟩
  have := C96_burnt two_wf (by unfold CardMask; decide) zero_deck hT h (T := fun _ => nT) (fun _ => hT) hR
    (k := .alone 0) (by unfold Counter.Valid; decide)
  rw [show (leftCards (maskCards flopMask ++ maskCards 0)).length - 2 * twoHands.length - (5 - (maskCards flopMask).length) = 43 from by
    decide +kernel] at this
  simpa only [Counter.value, Nat.cast_ofNat] using this

theorem two_total {nT : Nat} (hT : 0 < nT) {r : Results} (h : Delivers twoHands flopMask 0 nT r) : totalCount twoHands.length r ≠ 0 := by
  rw [h.total two_wf (by unfold CardMask; decide) zero_deck hT (by decide)]
  have : 0 < overShows (fun s => Spec.dealWeight s.1) (specRanges twoHands) (maskCards flopMask) (maskCards 0) := by decide +kernel
  have e : overShows allPoints (specRanges twoHands) (maskCards flopMask) (maskCards 0) =
      ((overShows (fun s => Spec.dealWeight s.1) (specRanges twoHands) (maskCards flopMask) (maskCards 0) : Nat) : ℚ) := by
    unfold overShows
    rw [Nat.cast_list_sum, List.map_map]
    rfl
  rw [e]
  exact_mod_cast this.ne'

/-- The equity of the aces on the flop is an average of their equities on the turns. -/
example (nT : Nat) (hT : 0 < nT) : ∃ (r : Results) (R : Nat → Results) (e : Nat → ℚ), Delivers twoHands flopMask 0 nT r ∧
    (∀ c < 52, c ∉ maskCards flopMask ++ maskCards 0 → totalCount 2 (R c) ≠ 0 → (R c).equities[0]? = some (some (e c))) ∧
    r.equities[0]? = some (some (((leftCards (maskCards flopMask ++ maskCards 0)).map fun c => totalCount 2 (R c) * e c).sum /
      ((leftCards (maskCards flopMask ++ maskCards 0)).map fun c => totalCount 2 (R c)).sum)) := by
  obtain ⟨r, h⟩ := two_delivers nT
  obtain ⟨R, hR⟩ := turn_delivers nT
  have hb : CardMask flopMask := by unfold CardMask; decide
  have hw : WholeShares twoHands flopMask 0 := C61_two_players two_wf rfl (p := 0) (by decide) (by decide)
  have he : ∀ c < 52, c ∉ maskCards flopMask ++ maskCards 0 → totalCount 2 (R c) ≠ 0 → (R c).equities[0]? = some (some
      (overShows (potPoints 0) (specRanges twoHands) (maskCards (flopMask ||| 2 ^ c)) (maskCards 0) / totalCount 2 (R c))) :=
    fun c h1 h2 h3 => (hR c h1 h2).equity two_wf (cardMask_set hb h1) zero_deck hT (by decide)
      (wholeShares_street hw (by decide) h1 h2) h3 (by decide)
  exact ⟨r, R, _, h, he, C96_average two_wf hb zero_deck hT (by decide) hw (by decide) h (two_total hT h) (T := fun _ => nT)
    (fun _ => hT) hR (by decide) he⟩

/-- Kings that are always played count twice as much as kings that are played half of the time, and the equities are the same. -/
example (nT : Nat) (hT : 0 < nT) : ∃ r r1, Delivers twoHands flopMask 0 nT r ∧
    Delivers [[⟨50, 51, 100⟩], [⟨46, 47, 100⟩]] flopMask 0 nT r1 ∧ r1.winsByMask 1 = 2 * r.winsByMask 1 ∧
    r1.equities[0]? = r.equities[0]? ∧ ∃ e, r.equities[0]? = some (some e) := by
  obtain ⟨r, h⟩ := two_delivers nT
  obtain ⟨r1, h1⟩ := delivers_exists (ranges := [[⟨50, 51, 100⟩], [⟨46, 47, 100⟩]]) (by unfold WfRange; decide)
    (by unfold CardMask; decide : CardMask flopMask) zero_deck (by decide +kernel) (by decide +kernel) nT
  have hw : WholeShares twoHands flopMask 0 := C61_two_players two_wf rfl (p := 0) (by decide) (by decide)
  have h0 := two_total hT h
  refine ⟨r, r1, h, h1, ?_, ?_, _, h.equity two_wf (by unfold CardMask; decide) zero_deck hT (by decide) hw h0 (by decide)⟩
  · have := C96_weights (pre := [[⟨50, 51, 100⟩]]) (Q := [⟨46, 47, 50⟩]) (post := []) (m := 2) two_wf
      (by unfold CardMask; decide) zero_deck hT hT h h1 (k := .mask 1) (by unfold Counter.Valid; decide)
    simp only [Counter.value] at this
    exact_mod_cast this
  · exact C96_same_equity (pre := [[⟨50, 51, 100⟩]]) (Q := [⟨46, 47, 50⟩]) (post := []) (m := 2) (by decide) two_wf
      (by unfold CardMask; decide) zero_deck hT hT (by decide) hw h h1 h0 (by decide)

/-- Aces or queens against kings: the counters for the aces and for the queens. -/
example (nT : Nat) (hT : 0 < nT) : ∃ r r1 r2, Delivers [[⟨50, 51, 100⟩, ⟨42, 43, 30⟩], [⟨46, 47, 50⟩]] flopMask 0 nT r ∧
    Delivers twoHands flopMask 0 nT r1 ∧ Delivers [[⟨42, 43, 30⟩], [⟨46, 47, 50⟩]] flopMask 0 nT r2 ∧
    r.winsByMask 2 = r1.winsByMask 2 + r2.winsByMask 2 := by
  obtain ⟨r1, h1⟩ := two_delivers nT
  obtain ⟨r, h⟩ := delivers_exists (ranges := [[⟨50, 51, 100⟩, ⟨42, 43, 30⟩], [⟨46, 47, 50⟩]]) (by unfold WfRange; decide)
    (by unfold CardMask; decide : CardMask flopMask) zero_deck (by decide +kernel) (by decide +kernel) nT
  obtain ⟨r2, h2⟩ := delivers_exists (ranges := [[⟨42, 43, 30⟩], [⟨46, 47, 50⟩]]) (by unfold WfRange; decide)
    (by unfold CardMask; decide : CardMask flopMask) zero_deck (by decide +kernel) (by decide +kernel) nT
  refine ⟨r, r1, r2, h, h1, h2, ?_⟩
  have := C96_parts (pre := []) (Q := [⟨50, 51, 100⟩]) (Q' := [⟨42, 43, 30⟩]) (post := [[⟨46, 47, 50⟩]])
    (by unfold WfRange; decide) (by unfold CardMask; decide) zero_deck hT hT hT h h1 h2 (k := .mask 2) (by unfold Counter.Valid; decide)
  simp only [Counter.value] at this
  exact_mod_cast this

end Pokers
