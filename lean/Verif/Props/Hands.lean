import Verif.Props.Exact
import Verif.Proofs.Summary
/-!
# What is reported about every hand (C13, C36, C37, C38)
-/
namespace Pokers
open Spec CombinedRange

/-- The two cards are a hand of the range with weight `w`, and neither is on the board or dead. -/
def Available (r : List Combo) (b d x y w : Nat) : Prop :=
  (⟨x, y, w⟩ ∈ r ∨ ⟨y, x, w⟩ ∈ r) ∧ ∀ c ∈ [x, y], c ∉ maskCards b ++ maskCards d

/-- Parsed ranges contain no hand twice. -/
theorem parsed_distinct {lower : List Char → List Char} {text : List Char} {hands : List Combo}
    (h : fromString lower text = .ok hands) : DistinctHands hands := by
  have h1 := C19_nodup h
  rw [List.Nodup, List.pairwise_map] at h1
  unfold DistinctHands
  refine List.Pairwise.imp_of_mem ?_ h1
  intro a c ha hc hne
  have h2 := C18_wellformed h ha
  have h3 := C18_wellformed h hc
  rintro (⟨e1, e2⟩ | ⟨e1, e2⟩)
  · exact hne (by rw [e1, e2])
  · omega

/-- Parsed ranges are well formed. -/
theorem parsed_wf {lower : List Char → List Char} {text : List Char} {hands : List Combo}
    (h : fromString lower text = .ok hands) : WfRange hands := by
  intro c hc
  have := C18_wellformed h hc
  omega

theorem distinct_filter {r : List Combo} (h : DistinctHands r) (b d : Nat) : DistinctHands (removeConflictingCombos r b d) := by
  rw [C23_filter]
  exact List.Pairwise.filter _ h

theorem available_iff {r : List Combo} {b d x y w : Nat} (hx : x < 52) (hy : y < 52) :
    Available r b d x y w ↔ ∃ c ∈ removeConflictingCombos r b d, ((c.c1 = x ∧ c.c2 = y) ∨ (c.c1 = y ∧ c.c2 = x)) ∧ c.w = w := by
  unfold Available
  have hm : ∀ c < 52, c ∉ maskCards b ++ maskCards d ↔ b.testBit c = false ∧ d.testBit c = false := by
    intro c hc
    rw [List.mem_append, mem_maskCards hc, mem_maskCards hc, not_or, Bool.not_eq_true, Bool.not_eq_true]
  rw [C23_filter]
  simp only [List.mem_filter, Bool.not_eq_true', Bool.or_eq_false_iff, List.forall_mem_cons, hm x hx, hm y hy, List.not_mem_nil, false_imp_iff,
    implies_true, and_true]
  constructor
  · rintro ⟨h | h, h1, h2⟩
    · exact ⟨_, ⟨h, ⟨⟨⟨h1.1, h2.1⟩, h1.2⟩, h2.2⟩⟩, .inl ⟨rfl, rfl⟩, rfl⟩
    · exact ⟨_, ⟨h, ⟨⟨⟨h2.1, h1.1⟩, h2.2⟩, h1.2⟩⟩, .inr ⟨rfl, rfl⟩, rfl⟩
  · rintro ⟨⟨c1, c2, cw⟩, ⟨h, h1⟩, h2, h3⟩
    simp only at h1 h2 h3
    subst h3
    rcases h2 with ⟨rfl, rfl⟩ | ⟨rfl, rfl⟩
    · exact ⟨.inl h, ⟨h1.1.1.1, h1.1.2⟩, h1.1.1.2, h1.2⟩
    · exact ⟨.inr h, ⟨h1.1.1.2, h1.2⟩, h1.1.1.1, h1.1.2⟩

section
variable {ranges : List (List Combo)} {b d nT : Nat} {cancelled stopped : Bool} {r : Results} {sent : List Nat} {sqrt : ℚ → ℚ}
    {ex : Bool} {s : Sim} {flag : Nat} {r0 : Results} {hist : List (Batch × HandStats)} {sd : List (List WHand × List Nat)}

/-- What a run reports about a hand of the range of player `p`, and about a hand that is not in it. -/
theorem Calc.hand_info (hdist : ∀ r ∈ ranges, DistinctHands r) (h : Calc sqrt ex ranges b d r s flag r0 hist sd)
    {p : Nat} (hp : p < ranges.length) {x y : Nat} (hx : x < 52) (hy : y < 52) (hxy : x ≠ y) :
    (∀ w, Available ranges[p] b d x y w → ∃ c : Combo, ((c.c1 = x ∧ c.c2 = y) ∨ (c.c1 = y ∧ c.c2 = x)) ∧
      IsCards (maskCards b ++ [c.c1, c.c2]) ∧
      infoOf (r.handResults (NUM_HANDS * p + getCardIndex x y)) = ⟨w, rankInfo b c, drawInfo b c, true⟩) ∧
    ((¬ ∃ w, Available ranges[p] b d x y w) →
      infoOf (r.handResults (NUM_HANDS * p + getCardIndex x y)) = ⟨0, 255, 0, false⟩) := by
  have hf := h.hands
  have hdist' : ∀ r ∈ s.handRanges, DistinctHands r := by
    rw [hf]
    intro r' hr'
    obtain ⟨r1, hr1, rfl⟩ := List.mem_map.1 hr'
    exact distinct_filter (hdist r1 hr1) b d
  have hp' : p < s.handRanges.length := by rw [hf, List.length_map]; exact hp
  have hel : s.handRanges[p] = removeConflictingCombos ranges[p] b d := by simp only [hf, List.getElem_map]
  obtain ⟨h1, h2⟩ := h.info hdist' hp'
  obtain ⟨hw, hok⟩ := h.board_hand
  have hkey : ∀ c ∈ s.handRanges[p], (rowKey p c = NUM_HANDS * p + getCardIndex x y ↔ (c.c1 = x ∧ c.c2 = y) ∨ (c.c1 = y ∧ c.c2 = x)) :=
    fun c hc => rowKey_eq hx hy hxy (hw _ (List.getElem_mem hp') c hc)
  refine ⟨fun w hav => ?_, fun hno => ?_⟩
  · obtain ⟨c, hc, hcx, hcw⟩ := (available_iff hx hy).1 hav
    have hc' : c ∈ s.handRanges[p] := hel ▸ hc
    refine ⟨c, hcx, hok _ (List.getElem_mem hp') c hc', ?_⟩
    rw [← (hkey c hc').2 hcx, h1 c hc', hcw]
  · refine h2 _ ?_ ?_
    · have := C10_card_index_bijective.2.1 x hx y hy hxy
      unfold InRow NUM_HANDS; omega
    · intro c hc he
      refine hno ⟨c.w, (available_iff hx hy).2 ⟨c, hel ▸ hc, (hkey c hc).1 he, rfl⟩⟩

/-! ## C38 -/

/-- C38_weights for both calculations. -/
theorem Calc.weights (hdist : ∀ r ∈ ranges, DistinctHands r) (h : Calc sqrt ex ranges b d r s flag r0 hist sd)
    {p : Nat} (hp : p < ranges.length) {x y : Nat} (hx : x < 52) (hy : y < 52) (hxy : x ≠ y) :
    let u := r.handResults (NUM_HANDS * p + getCardIndex x y)
    (u.valid = true ↔ ∃ w, Available ranges[p] b d x y w) ∧ (∀ w, Available ranges[p] b d x y w → u.weight = w) ∧
    (u.valid = false → u.weight = 0) := by
  intro u
  obtain ⟨h1, h2⟩ := h.hand_info hdist hp hx hy hxy
  have hA : ∀ w, Available ranges[p] b d x y w → u.valid = true ∧ u.weight = w := by
    intro w hav
    obtain ⟨c, _, _, he⟩ := h1 w hav
    exact ⟨congrArg HandInfo.valid he, congrArg HandInfo.weight he⟩
  by_cases hav : ∃ w, Available ranges[p] b d x y w
  · obtain ⟨w, hw⟩ := hav
    have := hA w hw
    refine ⟨⟨fun _ => ⟨w, hw⟩, fun _ => this.1⟩, fun w' hw' => (hA w' hw').2, fun hf => ?_⟩
    rw [this.1] at hf; cases hf
  · have he := h2 hav
    have hv : u.valid = false := congrArg HandInfo.valid he
    refine ⟨⟨fun hh => ?_, fun hh => absurd hh hav⟩, fun w' hw' => absurd ⟨w', hw'⟩ hav, fun _ => congrArg HandInfo.weight he⟩
    rw [hv] at hh; cases hh

/-! ## C37 -/

/-- C37_category for both calculations. -/
theorem Calc.category (hdist : ∀ r ∈ ranges, DistinctHands r) (h : Calc sqrt ex ranges b d r s flag r0 hist sd)
    {p : Nat} (hp : p < ranges.length) {x y : Nat} (hx : x < 52) (hy : y < 52) (hxy : x ≠ y) (h3 : 3 ≤ (maskCards b).length) {w : Nat} (hav : Available ranges[p] b d x y w) :
    (r.handResults (NUM_HANDS * p + getCardIndex x y)).rank < 9 ∧
    ∀ z ∈ playable (maskCards b ++ [x, y]), (∀ z' ∈ playable (maskCards b ++ [x, y]), value z' ≤ value z) →
      (r.handResults (NUM_HANDS * p + getCardIndex x y)).rank + 1 = category z := by
  have h5 := h.board
  obtain ⟨c, hc, hok, he⟩ := (h.hand_info hdist hp hx hy hxy).1 w hav
  have hr : (r.handResults (NUM_HANDS * p + getCardIndex x y)).rank = rankInfo b c := congrArg HandInfo.rank he
  have hco : countOnes b > 2 := by have := maskCards_length_le b; omega
  have hperm : (maskCards b ++ [c.c1, c.c2]).Perm (maskCards b ++ [x, y]) := by
    rcases hc with ⟨rfl, rfl⟩ | ⟨rfl, rfl⟩
    · exact .refl _
    · exact (List.Perm.swap ..).append_left _
  have hok' : IsCards (maskCards b ++ [x, y]) := ⟨hperm.nodup_iff.1 hok.1, fun z hz => hok.2 z (hperm.mem_iff.2 hz)⟩
  have hlen : (maskCards b ++ [x, y]).length = (maskCards b).length + 2 := by simp
  have hcat := categoryOfScore_eq hok' (by omega) (by omega)
  rw [hr, rankInfo, if_pos hco, C03_perm hperm]
  refine ⟨hcat.2, fun z hz hmax => ?_⟩
  rw [hcat.1]
  exact (C02_category hok' (by omega) (by omega)).2 z hz hmax

/-- C37_no_category for both calculations. -/
theorem Calc.no_category (hdist : ∀ r ∈ ranges, DistinctHands r) (h : Calc sqrt ex ranges b d r s flag r0 hist sd)
    {p : Nat} (hp : p < ranges.length) {x y : Nat} (hx : x < 52) (hy : y < 52) (hxy : x ≠ y) (hno : (¬ ∃ w, Available ranges[p] b d x y w) ∨ countOnes b < 3) :
    (r.handResults (NUM_HANDS * p + getCardIndex x y)).rank = 255 ∧ (r.handResults (NUM_HANDS * p + getCardIndex x y)).draw = 0 := by
  obtain ⟨h1, h2⟩ := h.hand_info hdist hp hx hy hxy
  by_cases hav : ∃ w, Available ranges[p] b d x y w
  · rcases hno with h | h3
    · exact absurd hav h
    obtain ⟨w, hw⟩ := hav
    obtain ⟨c, _, _, he⟩ := h1 w hw
    have hco : ¬ countOnes b > 2 := by omega
    have e1 := congrArg HandInfo.rank he
    have e2 := congrArg HandInfo.draw he
    simp only [infoOf, rankInfo, drawInfo, if_neg hco] at e1 e2
    exact ⟨e1, e2⟩
  · have he := h2 hav
    exact ⟨congrArg HandInfo.rank he, congrArg HandInfo.draw he⟩

/-! ## Tables -/

theorem weightOf_le {sd : List (List WHand × List Nat)} {P Q : List WHand × List Nat → Prop} [DecidablePred P] [DecidablePred Q]
    (h : ∀ x ∈ sd, P x → Q x) : weightOf sd P ≤ weightOf sd Q := by
  unfold weightOf
  induction sd with
  | nil => simp
  | cons x sd ih =>
    have ih := ih (fun y hy => h y (by simp [hy]))
    have hx := h x (by simp)
    simp only [List.filter_cons, decide_eq_true_eq]
    by_cases hp : P x
    · rw [if_pos hp, if_pos (hx hp)]
      simp only [List.map_cons, List.sum_cons]
      omega
    · rw [if_neg hp]
      split
      · simp only [List.map_cons, List.sum_cons]; omega
      · exact ih

theorem hand_counts_le (sd : List (List WHand × List Nat)) (p x y : Nat) :
    handWins sd p x y + handTies sd p x y ≤ handTotal sd p x y := by
  unfold handWins handTies handTotal
  rw [← weightOf_or]
  · apply weightOf_le
    rintro z _ (h | h)
    · exact h.1
    · exact h.1
  · rintro z _ ⟨_, h1⟩ ⟨_, _, h2⟩
    exact h2 h1

/-- After any run no hand has more wins and ties than showdowns. -/
theorem Calc.wins_ties_le (h : Calc sqrt ex ranges b d r s flag r0 hist sd) {p : Nat} (hp : p < ranges.length) :
    ∀ u ∈ handsOf p r.handResults allHands, u.wins + u.ties ≤ u.total := by
  have hc := h.counts
  intro u hu
  obtain ⟨⟨x, y⟩, hxy, rfl⟩ := List.mem_map.1 hu
  obtain ⟨hx, hy, hne⟩ := mem_allHands.1 hxy
  have hcell := hc.hand p hp x hx y hy (by rintro rfl; omega)
  have h1 := congrArg (fun c : Cell => c.1) hcell
  have h2 := congrArg (fun c : Cell => c.2.1) hcell
  have h3 := congrArg (fun c : Cell => c.2.2.1) hcell
  simp only [cellOf] at h1 h2 h3
  simp only
  rw [h1, h2, h3]
  exact hand_counts_le _ _ _ _

theorem mem_hands {c : PreCombo} (hc : c ∈ preCombos) {x : Nat × Nat} (hx : x ∈ c.hands) : x ∈ allHands :=
  List.mem_flatMap.2 ⟨c, hc, hx⟩

/-! ## C36 -/

theorem aggOf_final (us vs : List UnitResults) (h : us.map (fun u => (cellOf u, infoOf u)) = vs.map (fun u => (cellOf u, infoOf u))) :
    aggOf us = aggOf vs := by
  unfold aggOf
  generalize ({} : Agg) = a
  induction us generalizing vs a with
  | nil =>
    cases vs with
    | nil => rfl
    | cons v vs => simp at h
  | cons u us ih =>
    cases vs with
    | nil => simp at h
    | cons v vs =>
      rw [List.map_cons, List.map_cons, List.cons.injEq, Prod.mk.injEq] at h
      obtain ⟨⟨h1, h2⟩, h3⟩ := h
      rw [List.foldl_cons, List.foldl_cons]
      have : (finalHand u a).2 = (finalHand v a).2 := by
        unfold cellOf at h1
        unfold infoOf at h2
        simp only [Prod.mk.injEq] at h1
        simp only [HandInfo.mk.injEq] at h2
        unfold finalHand
        rw [h2.2.2.2, h1.2.2.1]
        split
        · split
          · simp only [h1.1, h1.2.1, h1.2.2.2, h2.1]
          · rfl
        · rfl
      rw [this]
      exact ih vs h3 _

/-- The result published for the preflop combo `c` of player `p`, in terms of the published hand results: the sums over its
hands that are valid and occurred in a showdown (divided by a common number if the total exceeds 64 bits), and their ratios. -/
def comboOf (r : Results) (p : Nat) (c : PreCombo) : UnitResults :=
  if counted (handsOf p r.handResults c.hands) = [] then UnitResults.default
  else comboRecord c.hands.length (sumHands (counted (handsOf p r.handResults c.hands)))

/-- C36_combos for both calculations. -/
theorem Calc.combos (h : Calc sqrt ex ranges b d r s flag r0 hist sd) :
    r.comboResults = (List.range ranges.length).flatMap (fun p => preCombos.map (comboOf r p)) := by
  have hn := h.players
  have hle : ∀ p < ranges.length, _ := fun p hp => h.wins_ties_le (p := p) hp
  have hcomb : (applyFlushes sqrt s.nPlayers ex hist r0).comboResults = [] := by
    apply applyFlushes_ind (P := fun r => r.comboResults = []) sqrt _ _ _ _ (startResults_counts h.start).2.2.2.1 h.ids
    intro x _ r hP hm
    rw [hm.combos, hP]
  have hfin : ∀ p < ranges.length, ∀ a b, a < 52 → b < 52 → a ≠ b → r.handResults (NUM_HANDS * p + getCardIndex a b) =
      finalUnit (fixHandWeights s.handRanges flag (applyFlushes sqrt s.nPlayers ex hist r0).handResults
        (NUM_HANDS * p + getCardIndex a b)) := by
    intro p hp a b ha hb hab
    rw [h.final]
    exact finishResults_hand s flag _ (by rw [hn]; exact cell_lt hp ha hb hab)
  have h2 := (finishResults_rest s flag (applyFlushes sqrt s.nPlayers ex hist r0)).2.1
  rw [← h.final, hcomb, List.nil_append, hn] at h2
  rw [h2]
  apply List.flatMap_congr
  intro p hp
  rw [List.mem_range] at hp
  rw [comboUnit_hands]
  apply List.map_congr_left
  intro c hc
  have hagg : aggOf (handsOf p (fixHandWeights s.handRanges flag (applyFlushes sqrt s.nPlayers ex hist r0).handResults) c.hands) =
      aggOf (handsOf p r.handResults c.hands) := by
    apply aggOf_final
    unfold handsOf
    rw [List.map_map, List.map_map]
    apply List.map_congr_left
    rintro ⟨x, y⟩ hxy
    obtain ⟨hx, hy, hne⟩ := mem_allHands.1 (mem_hands hc hxy)
    simp only [Function.comp_apply]
    rw [hfin p hp x y hx hy (by rintro rfl; omega), cellOf_finalUnit, infoOf_finalUnit]
  have hcnt := sumHands_le (us := counted (handsOf p r.handResults c.hands)) (by
    intro u hu
    apply hle p hp
    obtain ⟨x, hx, rfl⟩ := List.mem_map.1 (List.mem_of_mem_filter hu)
    exact List.mem_map.2 ⟨x, mem_hands hc hx, rfl⟩)
  rw [hn] at hagg
  rw [hagg, finalCombo_eq _ _ (by omega) (by omega)]
  rfl

theorem flatMap_get {α : Type} {m : Nat} (f : Nat → List α) (hf : ∀ p, (f p).length = m) (n : Nat) {p k : Nat} (hp : p < n) (hk : k < m) :
    ((List.range n).flatMap f)[m * p + k]? = (f p)[k]? := by
  induction n generalizing p with
  | zero => omega
  | succ n ih =>
    rw [List.range_succ, List.flatMap_append]
    have hl : ∀ n, ((List.range n).flatMap f).length = m * n := by
      intro n
      rw [List.length_flatMap, List.map_congr_left (fun x _ => hf x), List.map_const', List.sum_replicate, List.length_range, smul_eq_mul,
        Nat.mul_comm]
    rcases Nat.lt_succ_iff_lt_or_eq.1 hp with h | h
    · rw [List.getElem?_append_left, ih h]
      rw [hl]
      have : m * (p + 1) ≤ m * n := Nat.mul_le_mul_left _ h
      rw [Nat.mul_add] at this
      omega
    · subst h
      rw [List.getElem?_append_right (by rw [hl]; omega), hl, Nat.add_sub_cancel_left]
      simp

/-- C36_get for both calculations. -/
theorem Calc.combos_get (h : Calc sqrt ex ranges b d r s flag r0 hist sd) :
    r.comboResults.length = NUM_COMBOS * ranges.length ∧
    ∀ p < ranges.length, ∀ k (hk : k < preCombos.length), r.comboResults[NUM_COMBOS * p + k]? = some (comboOf r p preCombos[k]) := by
  rw [h.combos]
  constructor
  · rw [List.length_flatMap, List.map_congr_left (g := fun _ => NUM_COMBOS) (fun x _ => by rw [List.length_map, preCombos_length]; rfl),
      List.map_const', List.sum_replicate, List.length_range, smul_eq_mul, Nat.mul_comm]
  · intro p hp k hk
    have hl : ∀ p, (preCombos.map (comboOf r p)).length = NUM_COMBOS := fun p => by rw [List.length_map, preCombos_length]; rfl
    rw [flatMap_get _ hl _ hp (by rw [preCombos_length] at hk; exact hk), List.getElem?_map, List.getElem?_eq_getElem hk]
    rfl

/-- C36: what a combo result says when the total fits 64 bits: plain sums and quotients. -/
theorem C36_values {p : Nat} {c : PreCombo} (hne : counted (handsOf p r.handResults c.hands) ≠ [])
    (ht : ((counted (handsOf p r.handResults c.hands)).map (·.total)).sum < 2 ^ 64) :
    let us := counted (handsOf p r.handResults c.hands)
    let v := comboOf r p c
    v.wins = (us.map (·.wins)).sum ∧ v.ties = (us.map (·.ties)).sum ∧ v.total = (us.map (·.total)).sum ∧
    v.correctedTies = (us.map (·.correctedTies)).sum ∧ v.weight = (us.map (·.weight)).sum / c.hands.length ∧ v.valid = true ∧
    v.equity = some (((((us.map (·.wins)).sum : Nat) : ℚ) + (us.map (·.correctedTies)).sum) / (((us.map (·.total)).sum : Nat) : ℚ)) ∧
    v.winrate = some ((((us.map (·.wins)).sum : Nat) : ℚ) / (((us.map (·.total)).sum : Nat) : ℚ)) ∧
    v.tierate = some ((((us.map (·.ties)).sum : Nat) : ℚ) / (((us.map (·.total)).sum : Nat) : ℚ)) := by
  intro us v
  have hv : v = comboRecord c.hands.length (sumHands us) := by
    show comboOf r p c = _
    unfold comboOf
    rw [if_neg hne]
  have hs : scale (sumHands us).total = 1 := scale_small ht
  rw [hv]
  unfold comboRecord
  simp only [hs, Nat.div_one, Nat.cast_one, div_one]
  exact ⟨rfl, rfl, rfl, rfl, rfl, trivial, rfl, rfl, rfl⟩

/-- C36: a combo result never exceeds 64 bits; when the total does not fit, the sums are divided by the same number. -/
theorem C36_fits {p : Nat} {c : PreCombo} (hne : counted (handsOf p r.handResults c.hands) ≠ []) :
    let us := counted (handsOf p r.handResults c.hands)
    let v := comboOf r p c
    v.total < 2 ^ 64 ∧ 0 < v.total ∧ ∃ k, 0 < k ∧ v.wins = (us.map (·.wins)).sum / k ∧ v.ties = (us.map (·.ties)).sum / k ∧
      v.total = (us.map (·.total)).sum / k ∧ v.correctedTies = (us.map (·.correctedTies)).sum / k := by
  intro us v
  have hv : v = comboRecord c.hands.length (sumHands us) := by
    show comboOf r p c = _
    unfold comboOf
    rw [if_neg hne]
  rw [hv]
  exact ⟨scale_fits _, scaled_pos (sumHands_pos hne), scale (sumHands us).total, scale_pos _, rfl, rfl, rfl, rfl⟩

/-! ## C13 -/

/-- C13: `get_hand_result` knows exactly the 1326 canonical names (the first card is the better one, for pairs the one of the
lower suit) and returns the result stored for these two cards; every other text is an error. -/
theorem C13_hand (r : Results) (p : Nat) (name : List Char) (u : UnitResults) :
    getHandResult r p name = some u ↔
      ∃ h ∈ allHands, name = handName h ∧ u = r.handResults (NUM_HANDS * p + getCardIndex h.1 h.2) := by
  unfold getHandResult
  rw [Option.map_eq_some_iff]
  constructor
  · rintro ⟨i, hi, rfl⟩
    rw [C12_hand_to_index, index_to_hand_eq, List.getElem?_map, Option.map_eq_some_iff] at hi
    obtain ⟨h, h1, h2⟩ := hi
    obtain ⟨hlt, he⟩ := List.getElem?_eq_some_iff.1 h1
    refine ⟨h, he ▸ List.getElem_mem hlt, h2.symm, ?_⟩
    rw [← he, getCardIndex_get hlt]
  · rintro ⟨h, hm, rfl, rfl⟩
    obtain ⟨i, hi, rfl⟩ := List.getElem_of_mem hm
    refine ⟨i, ?_, by rw [getCardIndex_get hi]⟩
    rw [C12_hand_to_index, index_to_hand_eq, List.getElem?_map, List.getElem?_eq_getElem hi]
    rfl

/-- C13: every hand has a name under which its result is found. -/
theorem C13_hand_found (r : Results) (p : Nat) {a b : Nat} (ha : a < 52) (hb : b < 52)
    (h : Spec.rank b < Spec.rank a ∨ Spec.rank a = Spec.rank b ∧ Spec.suit a < Spec.suit b) :
    getHandResult r p (handName (a, b)) = some (r.handResults (NUM_HANDS * p + getCardIndex a b)) :=
  (C13_hand r p _ _).2 ⟨(a, b), mem_allHands.2 ⟨ha, hb, h⟩, rfl, rfl⟩

/-- C13_combo for both calculations. -/
theorem Calc.combo_result (h : Calc sqrt ex ranges b d r s flag r0 hist sd) {p : Nat} (hp : p < ranges.length) (name : List Char)
    (o : Option UnitResults) :
    getComboResult r p name = some o ↔ ∃ c ∈ preCombos, name = c.name ∧ o = some (comboOf r p c) := by
  obtain ⟨_, hget⟩ := h.combos_get
  unfold getComboResult
  rw [Option.map_eq_some_iff]
  constructor
  · rintro ⟨i, hi, rfl⟩
    rw [C12_combo_to_index, C12_index_to_combo, List.getElem?_map, Option.map_eq_some_iff] at hi
    obtain ⟨c, h1, h2⟩ := hi
    obtain ⟨hlt, he⟩ := List.getElem?_eq_some_iff.1 h1
    exact ⟨c, he ▸ List.getElem_mem hlt, h2.symm, by rw [hget p hp i hlt, he]⟩
  · rintro ⟨c, hm, rfl, rfl⟩
    obtain ⟨i, hi, rfl⟩ := List.getElem_of_mem hm
    refine ⟨i, ?_, hget p hp i hi⟩
    rw [C12_combo_to_index, C12_index_to_combo, List.getElem?_map, List.getElem?_eq_getElem hi]
    rfl

/-! ## C37: tables -/

/-- The hands of player `p` that are in the filtered range and currently make category `c` (0 … 8). -/
def categoryHands (r : Results) (p c : Nat) : List UnitResults :=
  (handsOf p r.handResults allHands).filter fun u => decide (u.valid = true ∧ u.rank = c)

/-- The hands of player `p` that are in the filtered range and have the draw of column `c` (0 … 9). -/
def drawHands (r : Results) (p c : Nat) : List UnitResults :=
  (handsOf p r.handResults allHands).filter fun u => decide (u.valid = true ∧ InColumn c u.draw)

/-- Every hand is a place of the hand results. -/
theorem Calc.valid_rank (hdist : ∀ r ∈ ranges, DistinctHands r) (h : Calc sqrt ex ranges b d r s flag r0 hist sd)
    {p : Nat} (hp : p < ranges.length) (h3 : 3 ≤ (maskCards b).length) :
    ∀ u ∈ handsOf p r.handResults allHands, u.valid = true → u.rank < 9 := by
  intro u hu hv
  obtain ⟨⟨x, y⟩, hxy, rfl⟩ := List.mem_map.1 hu
  obtain ⟨hx, hy, hne⟩ := mem_allHands.1 hxy
  have hne' : x ≠ y := by rintro rfl; omega
  obtain ⟨w, hav⟩ := (h.weights hdist hp hx hy hne').1.1 hv
  exact (h.category hdist hp hx hy hne' h3 hav).1

/-- C37_tables for both calculations. -/
theorem Calc.tables (hdist : ∀ r ∈ ranges, DistinctHands r) (h : Calc sqrt ex ranges b d r s flag r0 hist sd)
    {p : Nat} (hp : p < ranges.length) (h3 : 3 ≤ (maskCards b).length) :
    (∀ c < 9, r.boardResults (9 * p + c) = tableRecord (sumHands (categoryHands r p c))) ∧
    (∀ c < 10, r.boardDraws (10 * p + c) = tableRecord (sumHands (drawHands r p c))) := by
  have hn := h.players
  have hbm := h.boardMask
  have hco : countOnes s.boardMask > 2 := by rw [hbm]; have := maskCards_length_le b; omega
  have hinit := startResults_counts h.start
  have hkeep : (∀ k, (applyFlushes sqrt s.nPlayers ex hist r0).boardResults k = UnitResults.default) ∧
      ∀ k, (applyFlushes sqrt s.nPlayers ex hist r0).boardDraws k = UnitResults.default := by
    apply applyFlushes_ind (P := fun r => (∀ k, r.boardResults k = UnitResults.default) ∧ ∀ k, r.boardDraws k = UnitResults.default)
      sqrt _ _ _ _ ⟨hinit.2.2.2.2.1, hinit.2.2.2.2.2.1⟩ h.ids
    intro x _ r hP hm
    rw [hm.ranks, hm.draws]
    exact hP
  have hrest := (finishResults_rest s flag (applyFlushes sqrt s.nPlayers ex hist r0)).2.2.1 hco
  rw [← h.final] at hrest
  have htab := boardTables_eq s.nPlayers r.handResults (by
    intro i hi u hu
    rw [row_eq] at hu
    exact h.valid_rank hdist (by rw [← hn]; exact hi) h3 u hu) p (by rw [hn]; exact hp)
  rw [row_eq] at htab
  have hle := h.wins_ties_le hp
  constructor
  · intro c hc
    have hsum := sumHands_le (us := categoryHands r p c) (fun u hu => hle u (List.mem_of_mem_filter hu))
    have h1 := hrest.1 (p * 9 + c) (by rw [hn]; omega)
    rw [htab.1 c hc, hkeep.1] at h1
    rw [Nat.mul_comm 9 p, h1]
    exact boardUnit_eq _ (by unfold categoryHands at hsum; omega) (by unfold categoryHands at hsum; omega)
  · intro c hc
    have hsum := sumHands_le (us := drawHands r p c) (fun u hu => hle u (List.mem_of_mem_filter hu))
    have h1 := hrest.2 (p * 10 + c) (by rw [hn]; omega)
    rw [htab.2 c hc, hkeep.2] at h1
    rw [Nat.mul_comm 10 p, h1]
    exact boardUnit_eq _ (by unfold drawHands at hsum; omega) (by unfold drawHands at hsum; omega)

/-- C37_partition for both calculations. -/
theorem Calc.partition (hdist : ∀ r ∈ ranges, DistinctHands r) (h : Calc sqrt ex ranges b d r s flag r0 hist sd)
    {p : Nat} (hp : p < ranges.length) (h3 : 3 ≤ (maskCards b).length) :
    ((List.range 9).flatMap (categoryHands r p)).Perm ((handsOf p r.handResults allHands).filter (·.valid)) := by
  have hv := h.valid_rank hdist hp h3
  unfold categoryHands
  generalize handsOf p r.handResults allHands = us at hv
  induction us with
  | nil => simp
  | cons u us ih =>
    have ih := ih (fun v hv' => hv v (by simp [hv']))
    have hu := hv u (by simp)
    by_cases hval : u.valid = true
    · have hlt := hu hval
      rw [List.filter_cons, if_pos hval]
      refine List.Perm.trans ?_ (ih.cons u)
      have key : ∀ L : List Nat, L.Nodup → u.rank ∈ L → (L.flatMap fun c => (u :: us).filter fun u => decide (u.valid = true ∧ u.rank = c)).Perm
          (u :: L.flatMap fun c => us.filter fun u => decide (u.valid = true ∧ u.rank = c)) := by
        intro L hL hm
        induction L with
        | nil => simp at hm
        | cons c L ihL =>
          rw [List.flatMap_cons, List.flatMap_cons, List.filter_cons]
          rw [List.nodup_cons] at hL
          by_cases hc : u.rank = c
          · rw [if_pos (decide_eq_true ⟨hval, hc⟩), List.cons_append]
            refine List.Perm.cons u (List.Perm.append_left _ (List.Perm.of_eq ?_))
            apply List.flatMap_congr
            intro c' hc'
            rw [List.filter_cons, if_neg]
            simp only [decide_eq_true_eq]
            rintro ⟨_, e⟩
            exact hL.1 (hc ▸ e ▸ hc')
          · rw [if_neg (by simp only [decide_eq_true_eq]; exact fun e => hc e.2)]
            have := ihL hL.2 (by rcases List.mem_cons.1 hm with e | e; exact absurd e hc; exact e)
            exact (List.Perm.append_left _ this).trans List.perm_middle
      exact key _ List.nodup_range (List.mem_range.2 hlt)
    · rw [List.filter_cons, if_neg hval]
      refine List.Perm.trans (List.Perm.of_eq ?_) ih
      apply List.flatMap_congr
      intro c _
      rw [List.filter_cons, if_neg]
      simp only [decide_eq_true_eq]
      exact fun e => hval e.1

/-! ## The exact calculation -/

/-- C38: after any run, cancelled or not, a hand is reported as valid exactly if it is in the player's range and none of its
cards is on the board or dead; the reported weight is its weight in the range. -/
theorem C38_weights (hwf : ∀ r ∈ ranges, WfRange r) (hdist : ∀ r ∈ ranges, DistinctHands r) (hb : CardMask b) (hd : CardMask d)
    (h : ExactEquity ranges b d nT cancelled stopped (.ok r) sent) {p : Nat} (hp : p < ranges.length) {x y : Nat} (hx : x < 52)
    (hy : y < 52) (hxy : x ≠ y) :
    let u := r.handResults (NUM_HANDS * p + getCardIndex x y)
    (u.valid = true ↔ ∃ w, Available ranges[p] b d x y w) ∧ (∀ w, Available ranges[p] b d x y w → u.weight = w) ∧
    (u.valid = false → u.weight = 0) := by
  obtain ⟨_, _, _, _, _, _, _, hc⟩ := exact_calc hwf hb hd h
  exact hc.weights hdist hp hx hy hxy

/-- C37: with three or more board cards, the reported category of every hand of the range is the category of the best hand it
makes with the board (0 for high card up to 8 for a straight flush). -/
theorem C37_category (hwf : ∀ r ∈ ranges, WfRange r) (hdist : ∀ r ∈ ranges, DistinctHands r) (hb : CardMask b) (hd : CardMask d)
    (h : ExactEquity ranges b d nT cancelled stopped (.ok r) sent) {p : Nat} (hp : p < ranges.length) {x y : Nat} (hx : x < 52)
    (hy : y < 52) (hxy : x ≠ y) (h3 : 3 ≤ (maskCards b).length) {w : Nat} (hav : Available ranges[p] b d x y w) :
    (r.handResults (NUM_HANDS * p + getCardIndex x y)).rank < 9 ∧
    ∀ z ∈ playable (maskCards b ++ [x, y]), (∀ z' ∈ playable (maskCards b ++ [x, y]), value z' ≤ value z) →
      (r.handResults (NUM_HANDS * p + getCardIndex x y)).rank + 1 = category z := by
  obtain ⟨_, _, _, _, _, _, _, hc⟩ := exact_calc hwf hb hd h
  exact hc.category hdist hp hx hy hxy h3 hav

/-- C37: before the flop (with fewer than three bits in the board mask, see C84) no category is reported. -/
theorem C37_no_category (hwf : ∀ r ∈ ranges, WfRange r) (hdist : ∀ r ∈ ranges, DistinctHands r) (hb : CardMask b) (hd : CardMask d)
    (h : ExactEquity ranges b d nT cancelled stopped (.ok r) sent) {p : Nat} (hp : p < ranges.length) {x y : Nat} (hx : x < 52)
    (hy : y < 52) (hxy : x ≠ y) (hno : (¬ ∃ w, Available ranges[p] b d x y w) ∨ countOnes b < 3) :
    (r.handResults (NUM_HANDS * p + getCardIndex x y)).rank = 255 ∧ (r.handResults (NUM_HANDS * p + getCardIndex x y)).draw = 0 := by
  obtain ⟨_, _, _, _, _, _, _, hc⟩ := exact_calc hwf hb hd h
  exact hc.no_category hdist hp hx hy hxy hno

/-- C36: after any run there are 169 combo results per player, in the order of the combos, each the aggregate of its hands. -/
theorem C36_combos (hwf : ∀ r ∈ ranges, WfRange r) (hb : CardMask b) (hd : CardMask d)
    (h : ExactEquity ranges b d nT cancelled stopped (.ok r) sent) :
    r.comboResults = (List.range ranges.length).flatMap (fun p => preCombos.map (comboOf r p)) := by
  obtain ⟨_, _, _, _, _, _, _, hc⟩ := exact_calc hwf hb hd h
  exact hc.combos 

/-- C36: the number of combo results and the one at each place. -/
theorem C36_get (hwf : ∀ r ∈ ranges, WfRange r) (hb : CardMask b) (hd : CardMask d)
    (h : ExactEquity ranges b d nT cancelled stopped (.ok r) sent) :
    r.comboResults.length = NUM_COMBOS * ranges.length ∧
    ∀ p < ranges.length, ∀ k (hk : k < preCombos.length), r.comboResults[NUM_COMBOS * p + k]? = some (comboOf r p preCombos[k]) := by
  obtain ⟨_, _, _, _, _, _, _, hc⟩ := exact_calc hwf hb hd h
  exact hc.combos_get 

/-- C13: after any run, `get_combo_result` for a player of the game knows exactly the 169 combo names, returns the aggregate of
that combo and never reads beyond the end. -/
theorem C13_combo (hwf : ∀ r ∈ ranges, WfRange r) (hb : CardMask b) (hd : CardMask d)
    (h : ExactEquity ranges b d nT cancelled stopped (.ok r) sent) {p : Nat} (hp : p < ranges.length) (name : List Char)
    (o : Option UnitResults) :
    getComboResult r p name = some o ↔ ∃ c ∈ preCombos, name = c.name ∧ o = some (comboOf r p c) := by
  obtain ⟨_, _, _, _, _, _, _, hc⟩ := exact_calc hwf hb hd h
  exact hc.combo_result hp name o

/-- C37: with three or more board cards, the table by category and the table by draw hold the sums over the player's hands of
that category or with that draw. -/
theorem C37_tables (hwf : ∀ r ∈ ranges, WfRange r) (hdist : ∀ r ∈ ranges, DistinctHands r) (hb : CardMask b) (hd : CardMask d)
    (h : ExactEquity ranges b d nT cancelled stopped (.ok r) sent) {p : Nat} (hp : p < ranges.length) (h3 : 3 ≤ (maskCards b).length) :
    (∀ c < 9, r.boardResults (9 * p + c) = tableRecord (sumHands (categoryHands r p c))) ∧
    (∀ c < 10, r.boardDraws (10 * p + c) = tableRecord (sumHands (drawHands r p c))) := by
  obtain ⟨_, _, _, _, _, _, _, hc⟩ := exact_calc hwf hb hd h
  exact hc.tables hdist hp h3

/-- C37: every hand of the range is counted in exactly one category, so the sums over the nine categories are the sums over the
range. -/
theorem C37_partition (hwf : ∀ r ∈ ranges, WfRange r) (hdist : ∀ r ∈ ranges, DistinctHands r) (hb : CardMask b) (hd : CardMask d)
    (h : ExactEquity ranges b d nT cancelled stopped (.ok r) sent) {p : Nat} (hp : p < ranges.length) (h3 : 3 ≤ (maskCards b).length) :
    ((List.range 9).flatMap (categoryHands r p)).Perm ((handsOf p r.handResults allHands).filter (·.valid)) := by
  obtain ⟨_, _, _, _, _, _, _, hc⟩ := exact_calc hwf hb hd h
  exact hc.partition hdist hp h3

end

/-- A run of aces against kings on a flop: the aces are valid, have their weight and are one pair; the kings with a spade on
the board would not be. -/
example : ∃ r sent, ExactEquity twoHands flopMask 0 2 true true (.ok r) sent ∧
    (r.handResults (NUM_HANDS * 1 + getCardIndex 46 47)).valid = true ∧ (r.handResults (NUM_HANDS * 1 + getCardIndex 46 47)).weight = 50 ∧
    (r.handResults (NUM_HANDS * 1 + getCardIndex 46 47)).rank = 1 ∧ (r.handResults (NUM_HANDS * 1 + getCardIndex 50 51)).valid = false := by
  obtain ⟨r, sent, h⟩ := two_run 2 true
  have hwf : ∀ r ∈ twoHands, WfRange r := by unfold WfRange twoHands; decide
  have hds : ∀ r ∈ twoHands, DistinctHands r := by unfold DistinctHands twoHands; decide
  have hb : CardMask flopMask := by unfold CardMask; decide
  have hd : CardMask 0 := by unfold CardMask; decide
  have hav : Available twoHands[1] flopMask 0 46 47 50 := by unfold Available twoHands; decide +kernel
  have hna : ¬ ∃ w, Available twoHands[1] flopMask 0 50 51 w := by
    rintro ⟨w, hw, _⟩
    simp [twoHands] at hw
  have h38 := C38_weights hwf hds hb hd h (p := 1) (by decide) (x := 46) (y := 47) (by decide) (by decide) (by decide)
  have h38' := C38_weights hwf hds hb hd h (p := 1) (by decide) (x := 50) (y := 51) (by decide) (by decide) (by decide)
  have h37 := C37_category hwf hds hb hd h (p := 1) (by decide) (x := 46) (y := 47) (by decide) (by decide) (by decide) (by decide +kernel) hav
  refine ⟨r, sent, h, h38.1.2 ⟨50, hav⟩, h38.2.1 50 hav, ?_, ?_⟩
  · have := h37.2 [0, 5, 10, 46, 47] (by decide +kernel) (by decide +kernel)
    have h2 : category [0, 5, 10, 46, 47] = 2 := by decide +kernel
    omega
  · rw [← Bool.not_eq_true, h38'.1]; exact hna

end Pokers
