import Verif.Proofs.Counts
import Verif.Proofs.Finish
/-!
# The counters returned by a run of the exact calculation
-/
namespace Pokers
open Spec CombinedRange

/-- The counters in `r` are those of the showdowns `sd`. -/
structure CountsOf (n : Nat) (r : Results) (sd : List (List WHand × List Nat)) : Prop where
  hand : ∀ p < n, ∀ a < 52, ∀ b < 52, a ≠ b → cellOf (r.handResults (NUM_HANDS * p + getCardIndex a b)) =
    (handWins sd p a b, handTies sd p a b, handTotal sd p a b, handShares sd p a b)
  mask : ∀ i < 2 ^ n, r.winsByMask i = weightOf sd fun x => u8Mask (winners x.2 x.1) = i
  wins : ∀ p < n, r.wins p = r.winsByMask (2 ^ p)

theorem cell_lt {n p a b : Nat} (hp : p < n) (ha : a < 52) (hb : b < 52) (hab : a ≠ b) :
    NUM_HANDS * p + getCardIndex a b < NUM_HANDS * n := by
  have := C10_card_index_bijective.2.1 a ha b hb hab
  unfold NUM_HANDS
  omega

theorem CountsOf.of_tally {n : Nat} {r : Results} {sd : List (List WHand × List Nat)} (hsd : ∀ x ∈ sd, WfDeal x.1)
    (h : (trunc n (resFull r)).1 = (cut (2 ^ n) (sdTally sd).1, cut (NUM_HANDS * n) (sdTally sd).2))
    (hw : ∀ p < n, r.wins p = r.winsByMask (2 ^ p)) : CountsOf n r sd where
  hand := fun p hp a ha b hb hab => by
    have h1 := congrFun (congrArg Prod.snd h) (NUM_HANDS * p + getCardIndex a b)
    have hlt := cell_lt hp ha hb hab
    rw [← sdTally_cell sd hsd ha hb hab]
    have h2 := (cut_apply (fun k => cellOf (r.handResults k)) hlt).symm.trans h1
    exact h2.trans (cut_apply _ hlt)
  mask := fun i hi => by
    rw [← sdTally_mask]
    exact ((cut_apply r.winsByMask hi).symm.trans (congrFun (congrArg Prod.fst h) i)).trans (cut_apply _ hi)
  wins := hw

theorem applyFlushes_ind (P : Results → Prop) (sqrt : ℚ → ℚ) (n : Nat) (ex : Bool) (hist : List (Batch × HandStats)) (r : Results)
    (h0 : P r) (hids : ∀ x ∈ hist, IdPlayers n x.1)
    (hstep : ∀ x ∈ hist, ∀ r, P r → Merged n x.1 x.2 r (updateResults sqrt n ex x.1 x.2 r) → P (updateResults sqrt n ex x.1 x.2 r)) :
    P (applyFlushes sqrt n ex hist r) := by
  induction hist generalizing r with
  | nil => exact h0
  | cons x xs ih =>
    refine ih _ (hstep x (by simp) r h0 (updateResults_merged sqrt n ex x.1 x.2 r (hids x (by simp)))) (fun y hy => hids y (by simp [hy]))
      (fun y hy => hstep y (by simp [hy]))

theorem applyFlushes_wins {sqrt : ℚ → ℚ} {n : Nat} (hn : n ≤ 64) {ex : Bool} {hist : List (Batch × HandStats)} {r : Results}
    (h0 : ∀ p < n, r.wins p = r.winsByMask (2 ^ p)) (hids : ∀ x ∈ hist, IdPlayers n x.1) :
    ∀ p < n, (applyFlushes sqrt n ex hist r).wins p = (applyFlushes sqrt n ex hist r).winsByMask (2 ^ p) := by
  apply applyFlushes_ind (P := fun r => ∀ p < n, r.wins p = r.winsByMask (2 ^ p)) sqrt n ex hist r h0 hids
  intro x _ r hP hm p hp
  rw [hm.wins p hp, hm.masks _ (Nat.pow_lt_pow_right (by omega) hp), sum_maskWins _ hp hn, hP p hp]

/-- A complete run of the exact calculation that returned results. -/
structure Run (ranges : List (List Combo)) (b d nT : Nat) (stopped : Bool) (r : Results) (s : Sim) (ds : List DividerU64)
    (total size flag : Nat) (r0 : Results) (hist : List (Batch × HandStats)) (D : Multiset Nat) : Prop where
  ready : Ready ranges b d s ds total size
  start : startResults s = some (r0, flag)
  final : r = finishResults s flag (applyFlushes id s.nPlayers s.calcExact hist r0)
  ids : ∀ x ∈ hist, IdPlayers s.nPlayers x.1
  batches : ∀ x ∈ hist, ∃ D' ≤ D, trunc s.nPlayers (Pokers.full x) = sumOf (posFull s ds) D'
  sum : (hist.map fun x => trunc s.nPlayers (full x)).sum = sumOf (posFull s ds) D
  sub : D ≤ Multiset.range total
  all : 0 < nT → stopped = false → D = Multiset.range total

theorem exact_run {ranges : List (List Combo)} {b d nT : Nat} {cancelled stopped : Bool} {r : Results} {sent : List Nat}
    (hwf : ∀ r ∈ ranges, WfRange r) (hb : CardMask b) (hd : CardMask d)
    (h : ExactEquity ranges b d nT cancelled stopped (.ok r) sent) :
    ∃ s ds total size flag r0 hist D, Run ranges b d nT stopped r s ds total size flag r0 hist D ∧ sent.length = hist.length := by
  unfold ExactEquity at h
  split at h
  · exact absurd h.1 (by simp)
  · rename_i s hok
    obtain ⟨r0, flag, ds, total, size, w, h1, h2, h3, h4, h5, h6, h7, h8, h9⟩ := h
    have hr : Ready ranges b d s ds total size := ⟨hwf, hb, hd, hok, h2, h3, h4⟩
    obtain ⟨hist, D, g1, g2, g3, gb, g4, g5, g6⟩ := run_result hr.processes hr.size_pos h5 h6
    refine ⟨s, ds, total, size, flag, r0, hist, D, ⟨hr, h1, ?_, g3, gb, g4, g5, ?_⟩, ?_⟩
    · rw [← g1]; simpa using h7
    · rw [h9]; exact g6
    · rw [h8, g2]

section
variable {ranges : List (List Combo)} {b d nT : Nat} {stopped : Bool} {r : Results} {s : Sim} {ds : List DividerU64}
    {total size flag : Nat} {r0 : Results} {hist : List (Batch × HandStats)} {D : Multiset Nat}

theorem Run.full (h : Run ranges b d nT stopped r s ds total size flag r0 hist D) :
    trunc s.nPlayers (resFull r) = sumOf (posFull s ds) D := by
  rw [h.final, finishResults_full, applyFlushes_full _ _ _ _ _ h.ids, (startResults_counts h.start).2.2.1, map_zero, zero_add, h.sum]

theorem Run.wins (h : Run ranges b d nT stopped r s ds total size flag r0 hist D) :
    ∀ p < s.nPlayers, r.wins p = r.winsByMask (2 ^ p) := by
  obtain ⟨f1, _, f3, _⟩ := finishResults_counts s flag (applyFlushes id s.nPlayers s.calcExact hist r0)
  obtain ⟨g1, _, g3, _⟩ := startResults_counts h.start
  have hn := h.ready.fields.1
  have h9 := h.ready.fields.2.2.2.2.2.2.1
  intro p hp
  rw [h.final, f1, f3]
  refine applyFlushes_wins (by omega) (fun p hp => ?_) h.ids p hp
  rw [g1 p]
  exact (congrFun (congrArg (fun x : FT => x.1.1) g3) (2 ^ p)).symm

/-- The deal at a position, if it is legal. -/
def posDeal (s : Sim) (ds : List DividerU64) (pos : Nat) : Option (List WHand) :=
  match s.decode ds pos with
  | some (some x) => some ((List.range s.nPlayers).map x.2)
  | _ => none

theorem posShows_flatMap (s : Sim) (ds : List DividerU64) (L : List Nat) : L.flatMap (posShows s ds) =
    (L.filterMap (posDeal s ds)).flatMap (dealShows (maskCards s.boardMask) (maskCards s.deadMask)) := by
  induction L with
  | nil => rfl
  | cons p L ih =>
    rw [List.flatMap_cons, ih, List.filterMap_cons]
    unfold posShows posDeal
    cases hdec : s.decode ds p with
    | none => rfl
    | some o => cases o <;> rfl

theorem posDeals (h : Ready ranges b d s ds total size) :
    ((List.range total).filterMap (posDeal s ds)).Perm (deals (specRanges ranges) (maskCards b ++ maskCards d)) := by
  have hC := (C28_decode h.wf h.boardMask h.deadMask h.ok h.dividers h.count).2
  refine List.Perm.trans (List.Perm.of_eq ?_) hC
  apply List.filterMap_congr
  intro p _
  unfold posDeal
  cases hdec : s.decode ds p with
  | none => rfl
  | some o => cases o <;> rfl

/-- The counters are those of a collection of legal deals, each taken at most once; without cancellation they are those of all
legal deals. -/
theorem Run.counts (h : Run ranges b d nT stopped r s ds total size flag r0 hist D) :
    ∃ dls : List (List WHand), dls.Subperm (deals (specRanges ranges) (maskCards b ++ maskCards d)) ∧
      CountsOf ranges.length r (dls.flatMap (dealShows (maskCards b) (maskCards d))) ∧
      (0 < nT → stopped = false → dls.Perm (deals (specRanges ranges) (maskCards b ++ maskCards d)) ∧
        CountsOf ranges.length r (showdowns (specRanges ranges) (maskCards b) (maskCards d))) := by
  obtain ⟨h1, h2, h3, _⟩ := h.ready.fields
  obtain ⟨L, rfl⟩ := Quot.exists_rep D
  have hfull := congrArg Prod.fst h.full
  have hsum := sumOf_posFull s ds L
  have hw := h.wins
  have hdeals := posDeals h.ready
  have hL : L.Subperm (List.range total) := by
    have := h.sub
    rw [← Multiset.coe_range] at this
    exact Multiset.coe_le.1 this
  have hsub : (L.filterMap (posDeal s ds)).Subperm (deals (specRanges ranges) (maskCards b ++ maskCards d)) := by
    obtain ⟨l, hl1, hl2⟩ := hL
    have : (L.filterMap (posDeal s ds)).Subperm ((List.range total).filterMap (posDeal s ds)) :=
      ⟨l.filterMap (posDeal s ds), hl1.filterMap _, hl2.filterMap _⟩
    exact this.trans hdeals.subperm
  rw [posShows_flatMap, h2, h3] at hsum
  have hwf : ∀ dls : List (List WHand), dls.Subperm (deals (specRanges ranges) (maskCards b ++ maskCards d)) →
      ∀ x ∈ dls.flatMap (dealShows (maskCards b) (maskCards d)), WfDeal x.1 := by
    intro dls hdls x hx
    obtain ⟨dd, hdd, hx⟩ := List.mem_flatMap.1 hx
    obtain ⟨B, _, rfl⟩ := List.mem_map.1 hx
    exact (deals_wf h.ready.wf (hdls.subset hdd)).2.1
  refine ⟨L.filterMap (posDeal s ds), hsub, ?_, ?_⟩
  · rw [← h1]
    exact CountsOf.of_tally (hwf _ hsub) (hfull.trans hsum) hw
  · intro hn hst
    have hall := h.all hn hst
    rw [← Multiset.coe_range] at hall
    have hp : L.Perm (List.range total) := Multiset.coe_eq_coe.1 hall
    have hp2 := (hp.filterMap (posDeal s ds)).trans hdeals
    refine ⟨hp2, ?_⟩
    rw [← h1, showdowns_eq]
    refine CountsOf.of_tally (hwf _ (List.Subperm.refl _)) ?_ hw
    rw [hfull.trans hsum]
    have e : sdTally ((L.filterMap (posDeal s ds)).flatMap (dealShows (maskCards b) (maskCards d))) =
        sdTally ((deals (specRanges ranges) (maskCards b ++ maskCards d)).flatMap (dealShows (maskCards b) (maskCards d))) := by
      unfold sdTally
      exact ((hp2.flatMap_right _).map _).sum_eq
    rw [e]

end

end Pokers
