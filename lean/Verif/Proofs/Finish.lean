import Verif.Proofs.Threads
/-!
# What happens to the results before and after the threads run
-/
namespace Pokers

/-! ## Reported weights and ranks: only those fields change -/

/-- `u` and `v` have the same counts. -/
def SameCounts (u v : UnitResults) : Prop := cellOf u = cellOf v

/-- Folding updates that change only some entries by `f`. -/
theorem foldl_keep {α : Type} (P : (Nat → UnitResults) → Prop) (step : (Nat → UnitResults) → α → (Nat → UnitResults))
    (hstep : ∀ hr x, P hr → P (step hr x)) (l : List α) (hr : Nat → UnitResults) (h : P hr) : P (l.foldl step hr) := by
  induction l generalizing hr with
  | nil => exact h
  | cons x l ih => exact ih _ (hstep hr x h)

theorem fixHandWeights_keep (handRanges : List (List Combo)) (flag : Nat) (hr : Nat → UnitResults) :
    ∀ k, fixHandWeights handRanges flag hr k = { hr k with weight := (fixHandWeights handRanges flag hr k).weight } := by
  unfold fixHandWeights
  apply foldl_keep (P := fun h => ∀ k, h k = { hr k with weight := (h k).weight }) _ ?_ _ _ (fun k => rfl)
  rintro h ⟨range, i⟩ hP
  by_cases hf : flag &&& (1 <<< i) ≠ 0
  · simp only [hf, not_false_eq_true, if_true, ne_eq]
    apply foldl_keep (P := fun h => ∀ k, h k = { hr k with weight := (h k).weight }) _ ?_ _ _ hP
    intro h hand hP k
    simp only
    split
    · by_cases hk : k = NUM_HANDS * i + getCardIndex hand.c1 hand.c2
      · subst hk
        rw [Function.update_self, hP (NUM_HANDS * i + getCardIndex hand.c1 hand.c2)]
      · rw [Function.update_of_ne hk]; exact hP k
    · exact hP k
  · simp only [hf, if_false]
    exact hP

theorem saveHandWeights_keep (handRanges : List (List Combo)) (hr : Nat → UnitResults) :
    ∀ k, (saveHandWeights handRanges hr).1 k =
      { hr k with weight := ((saveHandWeights handRanges hr).1 k).weight, valid := ((saveHandWeights handRanges hr).1 k).valid } := by
  let Q : (Nat → UnitResults) → Prop := fun h => ∀ k, h k = { hr k with weight := (h k).weight, valid := (h k).valid }
  have hupd : ∀ (h : Nat → UnitResults) (j w : Nat) (v : Bool), Q h → Q (Function.update h j { h j with weight := w, valid := v }) := by
    intro h j w v hQ k
    by_cases hk : k = j
    · subst hk; rw [Function.update_self, hQ k]
    · rw [Function.update_of_ne hk]; exact hQ k
  have key : ∀ (l : List (List Combo × Nat)) (x : (Nat → UnitResults) × Nat), Q x.1 → Q (l.foldl (fun (hr, flag) (range, i) =>
    let flag := flag ||| (1 <<< i)
    let x := range.foldl (fun (hr, check, flag) (hand : Combo) =>
      let k := NUM_HANDS * i + getCardIndex hand.c1 hand.c2
      let u : UnitResults := { hr k with weight := hand.w, valid := true }
      let hr := Function.update hr k u
      if check && u.valid && u.weight != 100 then (hr, false, flag ^^^ (1 <<< i)) else (hr, check, flag))
      (hr, true, flag)
    let hr := if x.2.1 then range.foldl (fun hr (hand : Combo) =>
        let k := NUM_HANDS * i + getCardIndex hand.c1 hand.c2
        if (hr k).valid then Function.update hr k { hr k with weight := 1 } else hr) x.1
      else x.1
    (hr, x.2.2)) x).1 := by
    intro l
    induction l with
    | nil => exact fun x hx => hx
    | cons y l ih =>
      intro x hx
      rw [List.foldl_cons]
      apply ih
      obtain ⟨range, i⟩ := y
      obtain ⟨h, flag⟩ := x
      simp only
      have h1 : ∀ (l : List Combo) (z : (Nat → UnitResults) × Bool × Nat), Q z.1 → Q (l.foldl (fun (hr, check, flag) (hand : Combo) =>
          let k := NUM_HANDS * i + getCardIndex hand.c1 hand.c2
          let u : UnitResults := { hr k with weight := hand.w, valid := true }
          let hr := Function.update hr k u
          if check && u.valid && u.weight != 100 then (hr, false, flag ^^^ (1 <<< i)) else (hr, check, flag)) z).1 := by
        intro l
        induction l with
        | nil => exact fun z hz => hz
        | cons c l ih =>
          intro z hz
          rw [List.foldl_cons]
          apply ih
          obtain ⟨h, check, flag⟩ := z
          simp only
          split
          · exact hupd h _ _ _ hz
          · exact hupd h _ _ _ hz
      have h2 := h1 range (h, true, flag ||| (1 <<< i)) hx
      generalize range.foldl _ (h, true, flag ||| (1 <<< i)) = z at h2
      split
      · apply foldl_keep (P := Q) _ ?_ _ _ h2
        intro h hand hQ
        split
        · exact hupd h _ _ _ hQ
        · exact hQ
      · exact h2
  exact key _ _ (fun k => rfl)

theorem foldlM_keep {α σ : Type} (P : σ → Prop) (step : σ → α → Option σ)
    (hstep : ∀ s x s', P s → step s x = some s' → P s') (l : List α) (s s' : σ) (h : P s) (he : l.foldlM step s = some s') : P s' := by
  induction l generalizing s with
  | nil => rw [List.foldlM_nil] at he; exact Option.some.inj he ▸ h
  | cons x l ih =>
    rw [List.foldlM_cons] at he
    obtain ⟨s1, h1, h2⟩ := Option.bind_eq_some_iff.1 he
    exact ih s1 (hstep s x s1 h h1) h2

theorem setRanks_keep {handRanges : List (List Combo)} {boardMask : Nat} {hr hr' : Nat → UnitResults}
    (h : setRanks handRanges boardMask hr = some hr') :
    ∀ k, hr' k = { hr k with rank := (hr' k).rank, draw := (hr' k).draw } := by
  unfold setRanks at h
  apply foldlM_keep (P := fun h : Nat → UnitResults => ∀ k, h k = { hr k with rank := (h k).rank, draw := (h k).draw }) _ ?_ _ _ _
    (fun k => rfl) h
  rintro h1 ⟨range, i⟩ h2 hP he
  apply foldlM_keep (P := fun h : Nat → UnitResults => ∀ k, h k = { hr k with rank := (h k).rank, draw := (h k).draw }) _ ?_ _ _ _
    hP he
  intro h1 hand h2 hP he
  simp only at he
  obtain ⟨u, hu, hd⟩ := Option.map_eq_some_iff.1 he
  obtain ⟨d, _, hu⟩ := Option.map_eq_some_iff.1 hu
  subst hd
  intro k
  by_cases hk : k = NUM_HANDS * i + getCardIndex hand.c1 hand.c2
  · subst hk
    rw [Function.update_self, ← hu, hP (NUM_HANDS * i + getCardIndex hand.c1 hand.c2)]
  · rw [Function.update_of_ne hk]; exact hP k

/-- Only the description of the hand differs from the default. -/
def Blank (u : UnitResults) : Prop :=
  u = { UnitResults.default with weight := u.weight, rank := u.rank, draw := u.draw, valid := u.valid }

/-- The results the threads start from: no counts. -/
theorem startResults_counts {s : Sim} {r0 : Results} {flag : Nat} (h : startResults s = some (r0, flag)) :
    (∀ p, r0.wins p = 0) ∧ (∀ p, r0.ties p = 0) ∧ resFull r0 = 0 ∧ r0.comboResults = [] ∧
    (∀ k, r0.boardResults k = UnitResults.default) ∧ (∀ k, r0.boardDraws k = UnitResults.default) ∧
    ∀ k, Blank (r0.handResults k) := by
  unfold startResults at h
  simp only at h
  obtain ⟨hr, h1, h2⟩ := Option.map_eq_some_iff.1 h
  have h3 := (Prod.mk.inj h2).1
  subst h3
  have hs := saveHandWeights_keep s.handRanges (Results.init s.nPlayers).handResults
  have hk : ∀ k, Blank (hr k) := by
    intro k
    unfold Blank
    split at h1
    · have := setRanks_keep h1 k
      rw [this, hs k]
      rfl
    · have := Option.some.inj h1
      subst this
      rw [hs k]
      rfl
  refine ⟨fun _ => rfl, fun _ => rfl, ?_, rfl, fun _ => rfl, fun _ => rfl, hk⟩
  refine Prod.ext (Prod.ext rfl ?_) rfl
  funext k
  show cellOf (hr k) = 0
  have := hk k
  unfold Blank at this
  rw [this]
  rfl

/-! ## `generate_final_data` -/

/-- What `generate_final_data` does to the results of a hand. -/
def finalUnit (u : UnitResults) : UnitResults :=
  if u.valid then
    if u.total > 0 then { u with winrate := fdiv (u.wins : ℚ) (u.total : ℚ), tierate := fdiv (u.ties : ℚ) (u.total : ℚ) }
    else { u with equity := some 0 }
  else u

/-- The sums over the hands of a combo. -/
def aggOf (us : List UnitResults) : Agg := us.foldl (fun a u => (finalHand u a).2) {}

theorem finalHand_fst (u : UnitResults) (a : Agg) : (finalHand u a).1 = finalUnit u := by
  unfold finalHand finalUnit
  split
  · split <;> rfl
  · rfl

theorem finalHands_eq (start size : Nat) (hr : Nat → UnitResults) :
    finalHands start size hr =
      (fun k => if start ≤ k ∧ k < start + size then finalUnit (hr k) else hr k,
       aggOf ((List.range size).map fun k => hr (start + k))) := by
  unfold finalHands
  induction size with
  | zero =>
    refine Prod.ext ?_ rfl
    funext k
    refine Eq.symm (if_neg ?_)
    omega
  | succ n ih =>
    rw [List.range_succ, List.foldl_append, ih, List.foldl_cons, List.foldl_nil]
    simp only
    rw [if_neg (by omega)]
    refine Prod.ext ?_ ?_
    · funext k
      simp only
      by_cases hk : k = start + n
      · subst hk; rw [Function.update_self, if_pos (by omega), finalHand_fst]
      · rw [Function.update_of_ne hk]
        have : (start ≤ k ∧ k < start + n) ↔ (start ≤ k ∧ k < start + (n + 1)) := by omega
        simp only [this]
    · simp only
      rw [List.map_append]
      unfold aggOf
      rw [List.foldl_append]
      rfl

/-- The first hands of the combos from `j` on. -/
def starts : Nat → Nat → List Nat
  | 0, _ => []
  | fuel + 1, j => if j < NUM_HANDS then j :: starts fuel (j + batchSize j) else []

/-- The end of the last combo. -/
def endOf : Nat → Nat → Nat
  | 0, j => j
  | fuel + 1, j => if j < NUM_HANDS then endOf fuel (j + batchSize j) else j

theorem batchSize_pos (j : Nat) : 0 < batchSize j := by unfold batchSize; split <;> [omega; split <;> omega]

theorem le_endOf : ∀ fuel j, j ≤ endOf fuel j := by
  intro fuel
  induction fuel with
  | zero => intro j; exact le_rfl
  | succ f ih =>
    intro j
    unfold endOf
    split
    · have := ih (j + batchSize j); omega
    · exact le_rfl

/-- The combo result for the block of hands at `j`. -/
def comboUnit (i j : Nat) (hr : Nat → UnitResults) : UnitResults :=
  finalCombo (batchSize j) (aggOf ((List.range (batchSize j)).map fun k => hr (i * NUM_HANDS + j + k)))

theorem comboUnit_congr {i j : Nat} {hr hr' : Nat → UnitResults}
    (h : ∀ k, i * NUM_HANDS + j ≤ k → hr k = hr' k) : comboUnit i j hr = comboUnit i j hr' := by
  unfold comboUnit
  congr 2
  apply List.map_congr_left
  intro k _
  exact h _ (by omega)

theorem starts_ge : ∀ fuel j, ∀ x ∈ starts fuel j, j ≤ x := by
  intro fuel
  induction fuel with
  | zero => intro j x hx; simp [starts] at hx
  | succ f ih =>
    intro j x hx
    unfold starts at hx
    split at hx
    · rcases List.mem_cons.1 hx with rfl | hx
      · exact le_rfl
      · have := ih _ x hx; omega
    · simp at hx

theorem finalPlayer_eq (i : Nat) : ∀ fuel j hr cs, finalPlayer i fuel j hr cs =
    (fun k => if i * NUM_HANDS + j ≤ k ∧ k < i * NUM_HANDS + endOf fuel j then finalUnit (hr k) else hr k,
     cs ++ (starts fuel j).map fun j => comboUnit i j hr) := by
  intro fuel
  induction fuel with
  | zero =>
    intro j hr cs
    refine Prod.ext ?_ (by simp [finalPlayer, starts])
    funext k
    refine Eq.symm (if_neg ?_)
    rw [endOf]
    omega
  | succ f ih =>
    intro j hr cs
    unfold finalPlayer starts endOf
    by_cases hj : j < NUM_HANDS
    · simp only [hj, if_true]
      rw [ih, finalHands_eq]
      have hle := le_endOf f (j + batchSize j)
      have hpos := batchSize_pos j
      refine Prod.ext ?_ ?_
      · funext k
        simp only
        by_cases h1 : i * NUM_HANDS + j ≤ k ∧ k < i * NUM_HANDS + j + batchSize j
        · rw [if_neg (by omega), if_pos h1, if_pos (by omega)]
        · rw [if_neg h1]
          by_cases h2 : i * NUM_HANDS + (j + batchSize j) ≤ k ∧ k < i * NUM_HANDS + endOf f (j + batchSize j)
          · rw [if_pos h2, if_pos (by omega)]
          · rw [if_neg h2, if_neg (by omega)]
      · simp only
        rw [List.append_assoc, List.map_cons]
        congr 1
        rw [List.singleton_append]
        congr 1
        apply List.map_congr_left
        intro x hx
        have hx := starts_ge _ _ x hx
        apply comboUnit_congr
        intro k hk
        rw [if_neg (by omega)]
    · simp only [hj, if_false]
      refine Prod.ext ?_ (by simp)
      funext k
      simp only
      rw [if_neg (by omega)]

theorem endOf_all : endOf NUM_HANDS 0 = NUM_HANDS := by decide +kernel

theorem generateFinalData_eq (n : Nat) (r : Results) :
    (generateFinalData n r).handResults = (fun k => if k < n * NUM_HANDS then finalUnit (r.handResults k) else r.handResults k) ∧
    (generateFinalData n r).comboResults = r.comboResults ++
      (List.range n).flatMap fun i => (starts NUM_HANDS 0).map fun j => comboUnit i j r.handResults := by
  have key : ∀ m, (List.range m).foldl (fun (x : (Nat → UnitResults) × List UnitResults) i => finalPlayer i NUM_HANDS 0 x.1 x.2)
      (r.handResults, r.comboResults) =
      (fun k => if k < m * NUM_HANDS then finalUnit (r.handResults k) else r.handResults k,
       r.comboResults ++ (List.range m).flatMap fun i => (starts NUM_HANDS 0).map fun j => comboUnit i j r.handResults) := by
    intro m
    induction m with
    | zero =>
      refine Prod.ext ?_ (by simp)
      funext k; simp
    | succ m ih =>
      rw [List.range_succ, List.foldl_append, ih, List.foldl_cons, List.foldl_nil, finalPlayer_eq, endOf_all]
      have hm : (m + 1) * NUM_HANDS = m * NUM_HANDS + NUM_HANDS := by rw [Nat.add_mul, Nat.one_mul]
      refine Prod.ext ?_ ?_
      · funext k
        simp only [add_zero]
        by_cases h1 : k < m * NUM_HANDS
        · rw [if_neg (by omega), if_pos h1, if_pos (by omega)]
        · rw [if_neg h1]
          by_cases h2 : k < (m + 1) * NUM_HANDS
          · rw [if_pos (by omega), if_pos h2]
          · rw [if_neg (by omega), if_neg h2]
      · simp only
        rw [List.flatMap_append, List.flatMap_cons, List.flatMap_nil, List.append_nil, List.append_assoc]
        congr 2
        apply List.map_congr_left
        intro j _
        apply comboUnit_congr
        intro k hk
        rw [if_neg (by omega)]
  unfold generateFinalData
  exact ⟨congrArg Prod.fst (key n), congrArg Prod.snd (key n)⟩

theorem cellOf_finalUnit (u : UnitResults) : cellOf (finalUnit u) = cellOf u := by
  unfold finalUnit
  split
  · split <;> rfl
  · rfl

/-- The counters are not changed after the threads have finished. -/
theorem finishResults_counts (s : Sim) (flag : Nat) (r : Results) :
    (finishResults s flag r).wins = r.wins ∧ (finishResults s flag r).ties = r.ties ∧
    (finishResults s flag r).winsByMask = r.winsByMask ∧ (finishResults s flag r).evalCount = r.evalCount ∧
    ∀ k, cellOf ((finishResults s flag r).handResults k) = cellOf (r.handResults k) := by
  have hc : ∀ k, cellOf ((generateFinalData s.nPlayers (getEquity s.nPlayers { r with handResults := fixHandWeights s.handRanges flag r.handResults })).handResults k)
      = cellOf (r.handResults k) := by
    intro k
    rw [(generateFinalData_eq _ _).1]
    have : cellOf ((getEquity s.nPlayers { r with handResults := fixHandWeights s.handRanges flag r.handResults }).handResults k)
        = cellOf (r.handResults k) := by
      show cellOf (fixHandWeights s.handRanges flag r.handResults k) = _
      rw [fixHandWeights_keep]; rfl
    simp only
    split
    · rw [cellOf_finalUnit, this]
    · exact this
  unfold finishResults
  simp only
  split
  · exact ⟨rfl, rfl, rfl, rfl, hc⟩
  · exact ⟨rfl, rfl, rfl, rfl, hc⟩

theorem finishResults_full (s : Sim) (flag : Nat) (r : Results) : resFull (finishResults s flag r) = resFull r := by
  obtain ⟨_, _, h3, h4, h5⟩ := finishResults_counts s flag r
  refine Prod.ext (Prod.ext h3 ?_) h4
  funext k
  exact h5 k

end Pokers
