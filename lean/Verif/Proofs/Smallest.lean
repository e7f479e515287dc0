import Verif.Proofs.Exists
/-!
The search of `from_ranges` for the pair of combined ranges with the smallest join.
-/
namespace Pokers

open CombinedRange

/-- The number of compatible pairs. -/
def pairCount (a b : List JointCombo) : Nat := (a.map fun c1 => b.countP fun c2 => c1.mask &&& c2.mask = 0).sum

theorem estimate_inner (m : Nat) (b : List JointCombo) (n : Nat) :
    b.foldl (fun size c2 => if m &&& c2.mask = 0 then size + 1 else size) n = n + b.countP fun c2 => m &&& c2.mask = 0 := by
  induction b generalizing n with
  | nil => simp
  | cons c b ih =>
    rw [List.foldl_cons, ih, List.countP_cons]
    by_cases h : m &&& c.mask = 0
    · simp only [h, if_true, decide_true]; omega
    · simp only [h, if_false, decide_false, Bool.false_eq_true]; omega

theorem estimate_eq (a b : CombinedRange) : estimateJoinSize a b = pairCount a.combos b.combos := by
  unfold estimateJoinSize pairCount
  suffices ∀ n, a.combos.foldl (fun size c1 => b.combos.foldl
      (fun size c2 => if c1.mask &&& c2.mask = 0 then size + 1 else size) size) n =
      n + (a.combos.map fun c1 => b.combos.countP fun c2 => c1.mask &&& c2.mask = 0).sum by
    rw [this, Nat.zero_add]
  generalize a.combos = l
  induction l with
  | nil => simp
  | cons c l ih =>
    intro n
    rw [List.foldl_cons, ih, estimate_inner, List.map_cons, List.sum_cons]
    omega

theorem pairCount_nil (a : List JointCombo) : pairCount a [] = 0 := by
  unfold pairCount
  induction a with
  | nil => rfl
  | cons c a ih => rw [List.map_cons, List.sum_cons, ih]; rfl

theorem pairCount_cons (a : List JointCombo) (c : JointCombo) (b : List JointCombo) :
    pairCount a (c :: b) = (a.countP fun c1 => c.mask &&& c1.mask = 0) + pairCount a b := by
  induction a with
  | nil => rfl
  | cons x a ih =>
    have e1 : ∀ l, pairCount (x :: a) l = (l.countP fun c2 => x.mask &&& c2.mask = 0) + pairCount a l := fun l => by
      unfold pairCount; rw [List.map_cons, List.sum_cons]
    rw [e1, e1, ih, List.countP_cons, List.countP_cons, Nat.and_comm x.mask c.mask]
    omega

theorem pairCount_comm (a b : List JointCombo) : pairCount a b = pairCount b a := by
  induction b with
  | nil => rw [pairCount_nil]; rfl
  | cons c b ih =>
    rw [pairCount_cons, ih]
    unfold pairCount
    rw [List.map_cons, List.sum_cons]

theorem join_size (a b : CombinedRange) : (join a b).size = pairCount a.combos b.combos := by
  show (joinCombos a b).length = _
  unfold joinCombos pairCount
  rw [List.length_flatMap]
  congr 1
  apply List.map_congr_left
  intro c1 _
  generalize b.combos = l
  induction l with
  | nil => rfl
  | cons c l ih =>
    rw [List.countP_cons, List.filterMap_cons]
    by_cases h : c1.mask &&& c.mask = 0
    · rw [if_neg (not_not.2 h), if_pos (decide_eq_true h), ← ih]; rfl
    · rw [if_pos h, if_neg (by simpa using h), ← ih]; rfl

/-- The estimate is the size of the join, in either order. -/
theorem estimate_join (a b : CombinedRange) : estimateJoinSize a b = (join b a).size := by
  rw [estimate_eq, join_size, pairCount_comm]

theorem pairCount_le (a b : List JointCombo) : pairCount a b ≤ a.length * b.length := by
  unfold pairCount
  induction a with
  | nil => simp
  | cons c a ih =>
    rw [List.map_cons, List.sum_cons, List.length_cons, Nat.succ_mul]
    have : (b.countP fun c2 => c.mask &&& c2.mask = 0) ≤ b.length := List.countP_le_length
    omega

/-- The search finds the smallest join. -/
theorem bestPair_le (crs : List CombinedRange) {i j : Nat} (hi : i < crs.length) (hj : j < i) :
    (bestPair crs).1 ≤ estimateJoinSize (crs.getD i default) (crs.getD j default) := by
  have inner_le : ∀ (i : Nat) (l : List Nat) (st : Nat × Nat × Nat), (l.foldl (fun st j =>
      let s := estimateJoinSize (crs.getD i default) (crs.getD j default)
      if s < st.1 then (s, i, j) else st) st).1 ≤ st.1 := by
    intro i l
    induction l with
    | nil => intro st; exact Nat.le_refl _
    | cons j l ih =>
      intro st
      rw [List.foldl_cons]
      refine (ih _).trans ?_
      show (if _ < st.1 then _ else st).1 ≤ st.1
      split
      · rename_i h; exact Nat.le_of_lt h
      · exact Nat.le_refl _
  have inner_mem : ∀ (i j : Nat) (l : List Nat), j ∈ l → ∀ st : Nat × Nat × Nat, (l.foldl (fun st j =>
      let s := estimateJoinSize (crs.getD i default) (crs.getD j default)
      if s < st.1 then (s, i, j) else st) st).1 ≤ estimateJoinSize (crs.getD i default) (crs.getD j default) := by
    intro i j l
    induction l with
    | nil => intro h; cases h
    | cons k l ih =>
      intro h st
      rw [List.foldl_cons]
      rcases List.mem_cons.1 h with rfl | h
      · refine (inner_le _ _ _).trans ?_
        show (if _ < st.1 then _ else st).1 ≤ _
        split
        · exact Nat.le_refl _
        · rename_i h; exact Nat.le_of_not_lt h
      · exact ih h _
  have outer_le : ∀ (l : List Nat) (st : Nat × Nat × Nat), (l.foldl (fun st i => (List.range i).foldl (fun st j =>
      let s := estimateJoinSize (crs.getD i default) (crs.getD j default)
      if s < st.1 then (s, i, j) else st) st) st).1 ≤ st.1 := by
    intro l
    induction l with
    | nil => intro st; exact Nat.le_refl _
    | cons k l ih =>
      intro st
      rw [List.foldl_cons]
      exact (ih _).trans (inner_le _ _ _)
  have outer_mem : ∀ (l : List Nat), i ∈ l → ∀ st : Nat × Nat × Nat, (l.foldl (fun st i => (List.range i).foldl (fun st j =>
      let s := estimateJoinSize (crs.getD i default) (crs.getD j default)
      if s < st.1 then (s, i, j) else st) st) st).1 ≤ estimateJoinSize (crs.getD i default) (crs.getD j default) := by
    intro l
    induction l with
    | nil => intro h; cases h
    | cons k l ih =>
      intro h st
      rw [List.foldl_cons]
      rcases List.mem_cons.1 h with rfl | h
      · exact (outer_le _ _).trans (inner_mem _ _ _ (List.mem_range.2 hj) _)
      · exact ih h _
  exact outer_mem _ (List.mem_range.2 hi) _

/-- The pair found by the search is the one whose join is smallest. -/
theorem bestPair_smallest (crs : List CombinedRange) (h : (bestPair crs).1 < MAX_SIZE) {i j : Nat} (hi : i < crs.length) (hj : j < i) :
    (join (crs.getD (bestPair crs).2.2 default) (crs.getD (bestPair crs).2.1 default)).size ≤
      (join (crs.getD j default) (crs.getD i default)).size := by
  rw [← estimate_join, ← estimate_join, ← (bestPair_spec crs (Nat.lt_trans h (by decide))).2.2]
  exact bestPair_le crs hi hj

/-- Any two of the final combined ranges have at least 10000 compatible pairs of combos. -/
theorem final_pairs (ranges : List (List Combo)) {i j : Nat} (hi : i < (fromRanges ranges).length) (hj : j < i) :
    MAX_SIZE ≤ pairCount ((fromRanges ranges)[j]'(by omega)).combos ((fromRanges ranges)[i]).combos := by
  have h := (C27_exit ranges).trans (bestPair_le (fromRanges ranges) hi hj)
  rw [estimate_eq, pairCount_comm] at h
  rw [List.getD_eq_getElem _ _ (by omega), List.getD_eq_getElem _ _ hi] at h
  exact h

/-- A combined range of several players has fewer than 10000 combos. -/
theorem combineLoop_size : ∀ fuel crs, (∀ cr ∈ crs, cr.playerCount = 1 ∨ cr.size < MAX_SIZE) →
    ∀ cr ∈ combineLoop fuel crs, cr.playerCount = 1 ∨ cr.size < MAX_SIZE := by
  intro fuel
  induction fuel with
  | zero => intro crs h; exact h
  | succ fuel ih =>
    intro crs h cr hcr
    have e : combineLoop (fuel + 1) crs = if (bestPair crs).1 < MAX_SIZE then
      combineLoop fuel (joinAt crs (bestPair crs).2.1 (bestPair crs).2.2) else crs := rfl
    rw [e] at hcr
    split at hcr
    · rename_i hb
      refine ih _ (fun x hx => ?_) cr hcr
      obtain ⟨h1, h2, h3⟩ := bestPair_spec crs (Nat.lt_trans hb (by decide))
      have hx' := List.mem_of_mem_eraseIdx hx
      rcases List.mem_or_eq_of_mem_set hx' with hx' | rfl
      · exact h x hx'
      · right
        rw [← estimate_join, ← h3]
        exact hb
    · exact h cr hcr

theorem prod_pos_nat {l : List Nat} (h : ∀ n ∈ l, 0 < n) : 0 < l.prod := by
  induction l with
  | nil => simp
  | cons a l ih =>
    rw [List.prod_cons]
    exact Nat.mul_pos (h a (by simp)) (ih fun n hn => h n (by simp [hn]))

/-- If the numbers of combos multiply to fewer than 10000, all ranges are combined into one. -/
theorem fromRanges_single {ranges : List (List Combo)} (h0 : ranges ≠ []) (h : (ranges.map List.length).prod < MAX_SIZE) :
    (fromRanges ranges).length = 1 := by
  have hpos : 0 < (fromRanges ranges).length := by
    rw [List.length_pos_iff]
    intro he
    have := (C27_players ranges).1
    rw [he] at this
    have := this.length_eq
    rw [List.length_range] at this
    exact h0 (List.length_eq_zero_iff.1 this.symm)
  by_contra hne
  match hf : fromRanges ranges, hpos, hne with
  | [x], _, hne => exact hne rfl
  | x :: y :: l, _, _ =>
    have hall : ∀ z ∈ fromRanges ranges, 0 < z.size := by
      intro z hz
      obtain ⟨i, hi, rfl⟩ := List.getElem_of_mem hz
      by_contra hc
      have hsz := fromRanges_size ranges _ hz
      have h0' : ((fromRanges ranges)[i]).combos = [] := List.length_eq_zero_iff.1 (by
        have : ((fromRanges ranges)[i]).size = ((fromRanges ranges)[i]).combos.length := hsz
        omega)
      have hlen : 2 ≤ (fromRanges ranges).length := by rw [hf]; simp
      by_cases hi0 : i = 0
      · have := final_pairs ranges (i := 1) (j := 0) (by omega) (by omega)
        subst hi0
        rw [h0', pairCount_comm, pairCount_nil] at this
        exact absurd this (by decide)
      · have := final_pairs ranges (i := i) (j := 0) hi (by omega)
        rw [h0', pairCount_nil] at this
        exact absurd this (by decide)
    have hp := fromRanges_prod ranges
    have hxy := final_pairs ranges (i := 1) (j := 0) (by rw [hf]; simp) (by omega)
    simp only [hf, List.getElem_cons_zero, List.getElem_cons_succ] at hxy
    have hle := hxy.trans (pairCount_le x.combos y.combos)
    have hx : x.size = x.combos.length := fromRanges_size ranges x (by rw [hf]; simp)
    have hy : y.size = y.combos.length := fromRanges_size ranges y (by rw [hf]; simp)
    have hl : 0 < (l.map (·.size)).prod := prod_pos_nat (fun n hn => by
      obtain ⟨z, hz, rfl⟩ := List.mem_map.1 hn
      exact hall z (by rw [hf]; simp [hz]))
    rw [hf, List.map_cons, List.map_cons, List.prod_cons, List.prod_cons, ← Nat.mul_assoc, hx, hy] at hp
    have := Nat.le_mul_of_pos_right (x.combos.length * y.combos.length) hl
    omega

end Pokers
