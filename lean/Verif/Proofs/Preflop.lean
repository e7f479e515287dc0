import Verif.Proofs.PreflopSum
import Verif.Props.EndToEnd
/-!
# Two players before the flop: the equity from the points of each pair of hands
-/
namespace Pokers
open Spec Kernel

/-- A sum over the showdowns of two players, pair of hands by pair of hands. -/
theorem two_sum (board dead : List Nat) (R0 R1 : List WHand) (G : List WHand → List Nat → Nat) :
    ((showdowns [R0, R1] board dead).map fun x => G x.1 x.2).sum =
      (R0.map fun h => (R1.map fun v =>
        if Spec.Legal (board ++ dead) [h, v] then ((boards board dead [h, v]).map (G [h, v])).sum else 0).sum).sum := by
  have e : ((showdowns [R0, R1] board dead).map fun x => G x.1 x.2).sum =
      ((deals [R0, R1] (board ++ dead)).map fun d => ((boards board dead d).map (G d)).sum).sum := by
    unfold showdowns
    rw [List.flatMap_def, List.map_flatten, List.sum_flatten, List.map_map, List.map_map]
    congr 1
    apply List.map_congr_left
    intro d _
    simp only [Function.comp_def, List.map_map]
  rw [e]
  unfold deals
  rw [sum_filter_ite, choices_two]

/-- A legal pair of hands. -/
theorem pair_cards {R0 R1 : List WHand} (h0 : TwoCards R0) (h1 : TwoCards R1) {used : List Nat} {h v : WHand} (hh : h ∈ R0) (hv : v ∈ R1)
    (hL : Spec.Legal used [h, v]) : IsCards (dealt [h, v]) := by
  refine ⟨hL.1, fun c hc => ?_⟩
  have a := h0 h hh
  have b := h1 v hv
  simp [dealt, cardsOf] at hc
  rcases hc with rfl | rfl | rfl | rfl
  · exact a.1
  · exact a.2.1
  · exact b.1
  · exact b.2.1

/-- Twice what the first player wins, from the points of each pair of hands. -/
theorem pair_points {board dead : List Nat} (hb : IsCards board) (hl : board.length ≤ 5) {R0 R1 : List WHand} (h0 : TwoCards R0)
    (h1 : TwoCards R1) :
    (((R0.map fun h => (R1.map fun v => if Spec.Legal (board ++ dead) [h, v] then dealWeight [h, v] * ((boards board dead [h, v]).map fun B =>
      points (ofCards (B ++ cardsOf h)).evaluate (ofCards (B ++ cardsOf v)).evaluate).sum else 0).sum).sum : Nat) : ℚ) =
      2 * ((winsOf (showdowns [R0, R1] board dead) [0] : ℚ) + sharesOf (showdowns [R0, R1] board dead) 0) := by
  have key := headsUp_total (sd := showdowns [R0, R1] board dead) (fun x => points (ofCards (x.2 ++ cardsOf (x.1.getD 0 (0, 0, 0)))).evaluate
      (ofCards (x.2 ++ cardsOf (x.1.getD 1 (0, 0, 0)))).evaluate) ?_
  · rw [← key, two_sum board dead R0 R1 (fun d B => dealWeight d * points (ofCards (B ++ cardsOf (d.getD 0 (0, 0, 0)))).evaluate
      (ofCards (B ++ cardsOf (d.getD 1 (0, 0, 0)))).evaluate)]
    simp only [List.sum_map_mul_left]
    rfl
  intro x hx
  unfold showdowns at hx
  obtain ⟨d, hd, hx⟩ := List.mem_flatMap.1 hx
  obtain ⟨B, hB, rfl⟩ := List.mem_map.1 hx
  unfold deals at hd
  rw [List.mem_filter, decide_eq_true_iff] at hd
  obtain ⟨hd, hleg⟩ := hd
  have hd2 : ∃ h ∈ R0, ∃ v ∈ R1, d = [h, v] := by
    simp only [choices, List.mem_flatMap, List.mem_map] at hd
    obtain ⟨h, hh, e, ⟨v, hv, e', he', rfl⟩, rfl⟩ := hd
    rw [List.mem_singleton] at he'
    subst he'
    exact ⟨h, hh, v, hv, rfl⟩
  obtain ⟨h, hh, v, hv, rfl⟩ := hd2
  have hok : DealOk board dead [h, v] := ⟨hb, by omega, pair_cards h0 h1 hh hv hleg, hleg.2⟩
  obtain ⟨k1, k2, k3⟩ := boards_ok hok hB
  have hw := headsUp_winners rfl hok.cards k1 k2 k3
  rw [hw, points_eq]
  dsimp only
  generalize (ofCards (B ++ cardsOf ([h, v].getD 0 (0, 0, 0)))).evaluate = s at *
  generalize (ofCards (B ++ cardsOf ([h, v].getD 1 (0, 0, 0)))).evaluate = t at *
  by_cases a : s < t
  · simp [a]
  · by_cases b : t < s <;> simp [a, b]

/-- The number of boards for two known hands. -/
theorem preflop_boards {h v : WHand} (hc : IsCards (dealt [h, v])) : (boards [] [] [h, v]).length = 1712304 := by
  unfold boards completions
  rw [List.length_map, List.length_sublistsLen]
  have : ((List.range 52).filter fun c => decide (c ∉ [] ++ [] ++ dealt [h, v])).length = 48 := by
    have e := List.length_eq_length_filter_add (l := List.range 52) (fun c => decide (c ∉ [] ++ [] ++ dealt [h, v]))
    have e2 : ((List.range 52).filter fun c => !decide (c ∉ [] ++ [] ++ dealt [h, v])).length = 4 := by
      have p : ((List.range 52).filter fun c => !decide (c ∉ [] ++ [] ++ dealt [h, v])).Perm (dealt [h, v]) := by
        refine (List.perm_ext_iff_of_nodup (List.nodup_range.filter _) hc.1).2 fun c => ?_
        simp only [List.mem_filter, List.mem_range, List.nil_append, decide_not, Bool.not_not, decide_eq_true_iff]
        exact ⟨fun h => h.2, fun h => ⟨hc.2 c h, h⟩⟩
      rw [p.length_eq]
      rfl
    rw [e2, List.length_range] at e
    omega
  rw [this]
  decide +kernel

/-- The weight of all showdowns of two players before the flop. -/
theorem preflop_total {R0 R1 : List WHand} (h0 : TwoCards R0) (h1 : TwoCards R1) :
    totalWeight (showdowns [R0, R1] [] []) =
      (R0.map fun h => (R1.map fun v => if Spec.Legal [] [h, v] then dealWeight [h, v] * 1712304 else 0).sum).sum := by
  have := two_sum [] [] R0 R1 (fun d _ => dealWeight d)
  unfold totalWeight
  rw [this]
  congr 1
  apply List.map_congr_left
  intro h hh
  congr 1
  apply List.map_congr_left
  intro v hv
  by_cases hL : Spec.Legal ([] ++ []) [h, v]
  · rw [if_pos hL, if_pos (by exact hL)]
    simp only [List.map_const', List.sum_replicate, smul_eq_mul, preflop_boards (pair_cards h0 h1 hh hv hL)]
    ring
  · rw [if_neg hL, if_neg (by exact hL)]

/-- The equity of the first of two players before the flop, from the points of each pair of hands. -/
theorem preflop_equity {R0 R1 : List WHand} (h0 : TwoCards R0) (h1 : TwoCards R1) {pts : WHand → WHand → Nat}
    (hp : ∀ h ∈ R0, ∀ v ∈ R1, Spec.Legal [] [h, v] → ((boards [] [] [h, v]).map fun B =>
      points (ofCards (B ++ cardsOf h)).evaluate (ofCards (B ++ cardsOf v)).evaluate).sum = pts h v) :
    equityOf [R0, R1] [] [] 0 =
      fdiv (((R0.map fun h => (R1.map fun v => if Spec.Legal [] [h, v] then dealWeight [h, v] * pts h v else 0).sum).sum : Nat) : ℚ)
        ((2 * (R0.map fun h => (R1.map fun v => if Spec.Legal [] [h, v] then dealWeight [h, v] * 1712304 else 0).sum).sum : Nat) : ℚ) := by
  have key := pair_points (board := []) (dead := []) ⟨List.nodup_nil, by simp⟩ (by simp) h0 h1
  rw [equityOf_eq, preflop_total h0 h1]
  have e : (R0.map fun h => (R1.map fun v => if Spec.Legal [] [h, v] then dealWeight [h, v] * pts h v else 0).sum).sum =
      (R0.map fun h => (R1.map fun v => if Spec.Legal ([] ++ []) [h, v] then dealWeight [h, v] * ((boards [] [] [h, v]).map fun B =>
      points (ofCards (B ++ cardsOf h)).evaluate (ofCards (B ++ cardsOf v)).evaluate).sum else 0).sum).sum := by
    congr 1
    apply List.map_congr_left
    intro h hh
    congr 1
    apply List.map_congr_left
    intro v hv
    by_cases hL : Spec.Legal [] [h, v]
    · rw [if_pos hL, if_pos (by exact hL), hp h hh v hv hL]
    · rw [if_neg hL, if_neg (by exact hL)]
  rw [e, key]
  unfold fdiv
  generalize ((R0.map fun h => (R1.map fun v => if Spec.Legal [] [h, v] then dealWeight [h, v] * 1712304 else 0).sum).sum : Nat) = T
  rw [Nat.cast_mul, Nat.cast_two]
  by_cases hT : (T : ℚ) = 0
  · simp [hT]
  · rw [if_neg hT, if_neg (by simpa using hT), mul_div_mul_left _ _ two_ne_zero]

end Pokers
