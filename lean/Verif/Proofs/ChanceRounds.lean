import Verif.Proofs.ChanceRun
import Verif.Props.Accuracy
/-!
The sample space of the batches if all ranges were joined.
-/
namespace Pokers

open Spec
open scoped ENNReal

variable {ranges : List (List Combo)} {b d : Nat} {s : Sim}

theorem nextIdx_single {cr : CombinedRange} {u k : Nat} (hs : cr.size = cr.combos.length) (hk : k < cr.combos.length) (hf : ∀ c ∈ cr.combos, u &&& c.mask = 0) :
    nextIdx [cr] u [k] 0 = [(if k = 0 then cr.combos.length else k) - 1] := by
  obtain ⟨m, hm⟩ : ∃ m, cr.size = m + 1 := ⟨cr.size - 1, by omega⟩
  have hi : (if k = 0 then cr.combos.length else k) - 1 < cr.combos.length := by split <;> omega
  have hu : othersUsed u (picksAt [cr] [k]) 0 = u := rfl
  unfold nextIdx
  simp only [List.getElem?_cons_zero, List.getD_cons_zero, List.set_cons_zero]
  rw [hu, hm, redealLoop, hs]
  simp only [List.getElem?_eq_getElem hi]
  rw [if_pos (by rw [Nat.and_comm]; exact hf _ (List.getElem_mem hi))]
  rfl

theorem GoesRound.cons {α : Type} {order xs : List α} {k : Nat} {x : α} (hx : order[k % order.length]? = some x) (h : GoesRound order (k + 1) xs) :
    GoesRound order k (x :: xs) := by
  refine ⟨h.1, fun i hi => ?_⟩
  cases i with
  | zero => rw [List.getElem?_cons_zero, Nat.add_zero, hx]
  | succ i =>
    rw [List.getElem?_cons_succ, h.2 i (by rw [List.length_cons] at hi; omega), show k + 1 + i = k + (i + 1) by omega]

/-- With a single combined range the moves go round the deals. -/
theorem McReady.goes_round (h : McReady ranges b d s) {cr : CombinedRange} (hcr : s.combinedRanges = [cr]) :
    ∀ (mv : List Nat) (k j : Nat), (∀ i ∈ mv, i = 0) → k < cr.combos.length → (k + j + 1) % cr.combos.length = 0 →
      GoesRound (Pokers.visitOrder s cr) j (trackDeals s b d [k] mv) := by
  have hd := h.drawable cr (by rw [hcr]; simp)
  have hf : ∀ c ∈ cr.combos, (b ||| d) &&& c.mask = 0 := fun c hc => h.free_combo (by rw [hcr]; simp) hc
  have hlen := visitOrder_length s cr
  have hat : ∀ k j, k < cr.combos.length → (k + j + 1) % cr.combos.length = 0 → (Pokers.visitOrder s cr)[j % (Pokers.visitOrder s cr).length]? = some (dealAt s [k]) := by
    intro k j hk hj
    have e : dealAt s [k] = cycleDeal s cr.combos[k] := by
      unfold dealAt cycleDeal
      rw [hcr]
      show _ = (List.range s.nPlayers).map (writeAll [cr] [cr.combos[k]] _)
      unfold picksAt
      simp only [List.zipWith_cons_cons, List.zipWith_nil_left, List.getD_eq_getElem _ _ hk]
    rw [e, hlen]
    refine visitOrder_get (i := k) ?_ (List.getElem?_eq_getElem hk)
    have h1 := Nat.mod_lt j (Nat.zero_lt_of_lt hk)
    have h2 : (k + j % cr.combos.length + 1) % cr.combos.length = 0 := by
      rw [← hj]
      conv_rhs => rw [show k + j + 1 = (k + 1) + j by omega, Nat.add_mod]
      conv_lhs => rw [show k + j % cr.combos.length + 1 = (k + 1) + j % cr.combos.length by omega, Nat.add_mod, Nat.mod_mod]
    obtain ⟨c, hc⟩ := Nat.dvd_of_mod_eq_zero h2
    have : c = 1 := by
      rcases Nat.lt_or_ge c 2 with h3 | h3
      · have : c ≠ 0 := by rintro rfl; omega
        omega
      · have := Nat.mul_le_mul_left cr.combos.length h3
        omega
    subst this
    omega
  intro mv
  induction mv with
  | nil =>
    intro k j _ hk hj
    refine GoesRound.cons (hat k j hk hj) (GoesRound.nil ?_ _)
    rw [← List.length_pos_iff, hlen]; omega
  | cons i mv ih =>
    intro k j hi hk hj
    have hi0 := hi i (List.mem_cons_self ..)
    subst hi0
    refine GoesRound.cons (hat k j hk hj) ?_
    have hn := nextIdx_single (u := b ||| d) hd.1 hk hf
    have := ih ((if k = 0 then cr.combos.length else k) - 1) (j + 1) (fun i hm => hi i (List.mem_cons_of_mem _ hm)) (by split <;> omega) (by
      split
      · subst k
        rw [show cr.combos.length - 1 + (j + 1) + 1 = (0 + j + 1) + cr.combos.length by omega, Nat.add_mod_right]
        exact hj
      · rw [show k - 1 + (j + 1) + 1 = k + j + 1 by omega]
        exact hj)
    unfold trackDeals at this
    rw [hcr] at this ⊢
    rwa [hn]

/-- The deals of several batches. -/
def tracks (s : Sim) (b d : Nat) (ts : List (List Nat × List Nat)) : List (List WHand) := ts.flatMap fun t => trackDeals s b d t.1 t.2

theorem average_le {α : Type} {l : List α} (h0 : l ≠ []) {f : α → ℝ≥0∞} {c : ℝ≥0∞} (h : ∀ x ∈ l, c ≤ f x) : c ≤ average l f := by
  rw [← average_const h0 c]
  unfold average
  exact mul_le_mul_right (List.sum_le_sum h) _

/-- What holds on average for all boards of any deals that can come up, holds on average in the sample space. -/
theorem McReady.runSpace_le (h : McReady ranges b d s) (hne : deals (specRanges ranges) (maskCards b ++ maskCards d) ≠ []) {c : ℝ≥0∞} :
    ∀ (K : Nat) (f : List (List WHand × List Nat) → ℝ≥0∞), (∀ ts : List (List Nat × List Nat), ts.length = K →
      (∀ t ∈ ts, t.1 ∈ legalIdxs s.combinedRanges (b ||| d) ∧ t.2 ∈ moveLists s) → c ≤ average (outcomes (maskCards b) (maskCards d) (tracks s b d ts)) f) →
    c ≤ average (runSpace s b d K) f
  | 0, f, hf => by
    have := hf [] rfl (by simp)
    rw [average_runSpace_zero]
    refine this.trans (le_of_eq ?_)
    show average [[]] f = _
    unfold average
    simp
  | K + 1, f, hf => by
    have hbal := h.balanced hne fun _ => h.boards_ne
    rw [Nat.add_comm, average_runSpace_add, average_runSpace_one]
    unfold batchSpace pathSpace
    rw [average_bind (n := (moveLists s).length * boardCount ranges b d ^ 4096)]
    · refine average_le hbal.first fun x hx => ?_
      rw [average_bind (n := boardCount ranges b d ^ 4096) _ fun m hm => hbal.outcomes_length hx hm]
      refine average_le hbal.moves fun m hm => ?_
      rw [average_comm]
      refine h.runSpace_le hne K _ fun ts hl hts => ?_
      rw [average_comm]
      have := hf ((x, m) :: ts) (by rw [List.length_cons, hl]) (by
        intro t ht
        rcases List.mem_cons.1 ht with rfl | ht
        · exact ⟨hx, hm⟩
        · exact hts t ht)
      refine this.trans (le_of_eq ?_)
      unfold tracks outcomes
      rw [List.flatMap_cons, List.map_append, average_append]
    · intro x hx
      rw [List.length_flatMap, List.map_congr_left (g := fun _ => boardCount ranges b d ^ 4096) (fun m hm => hbal.outcomes_length hx hm), List.map_const', List.sum_replicate,
        smul_eq_mul]

/-- With a single combined range the deals are those of a run. -/
theorem McReady.tracks_evaluate (h : McReady ranges b d s) (h1 : s.combinedRanges.length = 1) (ts : List (List Nat × List Nat))
    (hts : ∀ t ∈ ts, t.1 ∈ legalIdxs s.combinedRanges (b ||| d) ∧ t.2 ∈ moveLists s) : Evaluates ranges b d ts.length (tracks s b d ts) := by
  obtain ⟨cr, hcr⟩ := List.length_eq_one_iff.1 h1
  refine ⟨Pokers.visitOrder s cr, ts.map fun t => trackDeals s b d t.1 t.2, h.visitOrder hcr, ?_, List.length_map _, fun B hB => ?_⟩
  · unfold tracks; rw [List.flatMap_def]
  · obtain ⟨t, ht, rfl⟩ := List.mem_map.1 hB
    obtain ⟨hx, hm⟩ := hts t ht
    obtain ⟨m1, m2⟩ := mem_moveLists.1 hm
    refine ⟨by rw [trackDeals_length, m1], ?_⟩
    have hx' := (mem_legalIdxs _ _ _ fun cr hc => (h.drawable cr hc).1).1 hx
    rw [hcr] at hx' m2
    have hd := h.drawable cr (by rw [hcr]; simp)
    obtain ⟨x, mv⟩ := t
    match x, hx' with
    | [k], hx' =>
      have hk : k < cr.combos.length := by rw [← hd.1]; exact hx'.1
      refine ⟨cr.combos.length - 1 - k, h.goes_round hcr mv k _ (fun i hi => ?_) hk ?_⟩
      · have := m2 i hi
        simpa using this
      · rw [show k + (cr.combos.length - 1 - k) + 1 = cr.combos.length by omega, Nat.mod_self]
    | _ :: _ :: _, hx' => exact absurd hx'.2.choose_spec.2.2 (by simp [LegalIdx])

end Pokers
