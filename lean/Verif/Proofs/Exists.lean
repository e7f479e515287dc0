import Verif.Proofs.Describe
/-!
# Runs of the exact calculation exist
-/
namespace Pokers
open Spec CombinedRange

/-- With a combination count that leaves room for the last reservation, everything is prepared. -/
theorem ready_exists {ranges : List (List Combo)} {b d : Nat} {s : Sim} (hwf : ∀ r ∈ ranges, WfRange r) (hb : CardMask b)
    (hd : CardMask d) (hok : prepareExact ranges b d = .ok s) (hprod : (s.combinedRanges.map (·.size)).prod + 2000000 < 2 ^ 64) :
    ∃ ds total size, Ready ranges b d s ds total size ∧ total + size < 2 ^ 64 := by
  obtain ⟨h1, h2⟩ := C28_prepared hok
  obtain ⟨total, ht⟩ := h1.2 (by omega)
  obtain ⟨e, _, ds, hds⟩ := h2 total ht
  have hs := (C26_postflop hok).2.2
  refine ⟨ds, total, _, ⟨hwf, hb, hd, hok, hds, ht, hs⟩, ?_⟩
  have := Nat.div_le_self 2000000 ((52 - (maskCards b).length - countOnes d - 2 * ranges.length).choose (5 - (maskCards b).length))
  omega

/-- Every state the threads can reach can be completed to a run. -/
theorem Ready.run_exists {ranges : List (List Combo)} {b d : Nat} {s : Sim} {ds : List DividerU64} {total size : Nat}
    (h : Ready ranges b d s ds total size) (hov : total + size < 2 ^ 64) (nT : Nat) (cancelled : Bool) :
    ∃ r sent, ExactEquity ranges b d nT cancelled cancelled (.ok r) sent := by
  obtain ⟨r0, flag, h0⟩ := h.start_some
  obtain ⟨v, hv, hdone, hst⟩ := Steps.finish h.processes h.size_pos hov (r0 := r0) (nT := nT) (cancelled := cancelled) .refl
  refine ⟨finishResults s flag v.shared.results, v.shared.sent, ?_⟩
  unfold ExactEquity
  rw [h.ok]
  exact ⟨r0, flag, ds, total, size, v, h0, h.dividers, h.count, h.batch, hv, hdone, rfl, rfl, hst.symm⟩

/-- Whenever the input is accepted and the combination count is not too large, there is a run. -/
theorem run_exists {ranges : List (List Combo)} {b d : Nat} {s : Sim} (hwf : ∀ r ∈ ranges, WfRange r) (hb : CardMask b)
    (hd : CardMask d) (hok : prepareExact ranges b d = .ok s) (hprod : (s.combinedRanges.map (·.size)).prod + 2000000 < 2 ^ 64)
    (nT : Nat) (cancelled : Bool) : ∃ r sent, ExactEquity ranges b d nT cancelled cancelled (.ok r) sent := by
  obtain ⟨ds, total, size, hr, hov⟩ := ready_exists hwf hb hd hok hprod
  exact hr.run_exists hov nT cancelled

/-- The same, with conditions that can be checked by computation. -/
theorem run_exists' {ranges : List (List Combo)} {b d : Nat} (hwf : ∀ r ∈ ranges, WfRange r) (hb : CardMask b)
    (hd : CardMask d) (hv : validate ranges.length b d = none)
    (hsz : ((fromRanges (ranges.map fun h => removeConflictingCombos h b d)).any fun cr => cr.size == 0) = false)
    (hprod : ((fromRanges (ranges.map fun h => removeConflictingCombos h b d)).map (·.size)).prod + 2000000 < 2 ^ 64)
    (nT : Nat) (cancelled : Bool) : ∃ r sent, ExactEquity ranges b d nT cancelled cancelled (.ok r) sent := by
  have hok : prepareExact ranges b d = .ok (Sim.new (ranges.map fun h => removeConflictingCombos h b d)
      (fromRanges (ranges.map fun h => removeConflictingCombos h b d)) b d true) := by
    unfold prepareExact
    rw [hv]
    show (if _ then _ else _) = _
    rw [if_neg (by rw [hsz]; simp)]
  exact run_exists hwf hb hd hok hprod nT cancelled

/-! ## Runs exist for all inputs that allow a deal -/

theorem join_length (a b : CombinedRange) : (join a b).combos.length ≤ a.combos.length * b.combos.length := by
  show (joinCombos a b).length ≤ _
  unfold joinCombos
  generalize a.combos = l
  induction l with
  | nil => simp
  | cons c l ih =>
    rw [List.flatMap_cons, List.length_append, List.length_cons, Nat.succ_mul]
    have := List.length_filterMap_le (fun c2 => if c.mask &&& c2.mask ≠ 0 then none else some (joinCombo a.playerCount b.playerCount c c2))
      b.combos
    omega

/-- Combining ranges does not increase the number of combinations. -/
theorem fromRanges_prod (ranges : List (List Combo)) : ((fromRanges ranges).map (·.size)).prod ≤ (ranges.map List.length).prod := by
  rw [sizeProd_eq _ (fromRanges_size ranges)]
  unfold fromRanges
  apply combineLoop_ind (fun crs => sizeProd crs ≤ (ranges.map List.length).prod)
  · intro xs ys h hx
    unfold sizeProd at hx ⊢
    rw [← (h.map _).prod_eq]
    exact hx
  · intro a b rest h
    refine le_trans ?_ h
    simp only [sizeProd, List.map_cons, List.prod_cons]
    rw [← Nat.mul_assoc]
    exact Nat.mul_le_mul_right _ (join_length a b)
  · apply le_of_eq
    unfold sizeProd
    congr 1
    apply List.ext_getElem
    · simp
    · intro i h1 h2
      simp [fromRange]

/-- If the input is valid, some deal is possible and the ranges are not astronomically large, there is a run, for every number of threads,
with and without cancellation. -/
theorem run_of_deal {ranges : List (List Combo)} {b d : Nat} (hwf : ∀ r ∈ ranges, WfRange r) (hb : CardMask b)
    (hd : CardMask d) (hv : validate ranges.length b d = none) (hdeal : deals (specRanges ranges) (maskCards b ++ maskCards d) ≠ [])
    (hprod : (ranges.map List.length).prod + 2000000 < 2 ^ 64)
    (nT : Nat) (cancelled : Bool) : ∃ r sent, ExactEquity ranges b d nT cancelled cancelled (.ok r) sent := by
  have hsz : ((fromRanges (ranges.map fun h => removeConflictingCombos h b d)).any fun cr => cr.size == 0) = false := by
    rw [← Bool.not_eq_true]
    intro h
    apply hdeal
    apply C40_sound hwf hb hd
    unfold prepareExact
    rw [hv]
    show (if _ then _ else _) = _
    rw [if_pos h]
  refine run_exists' hwf hb hd hv hsz ?_ nT cancelled
  have h1 := fromRanges_prod (ranges.map fun h => removeConflictingCombos h b d)
  have h2 : ((ranges.map fun h => removeConflictingCombos h b d).map List.length).prod ≤ (ranges.map List.length).prod := by
    clear hwf hv hdeal hprod hsz h1
    induction ranges with
    | nil => simp
    | cons r ranges ih =>
      simp only [List.map_cons, List.prod_cons]
      exact Nat.mul_le_mul (List.length_filter_le _ _) ih
  omega

end Pokers
