import Verif.Proofs.McChoice
import Verif.Props.McMean
import Verif.Proofs.Sampling
import Mathlib.Analysis.Normed.Ring.InfiniteSum
import Mathlib.Topology.Algebra.InfiniteSum.Real
import Mathlib.Algebra.BigOperators.Field
/-!
# The outcomes of the random simulation are equally likely (C80)
-/
namespace Pokers
open Spec
open CombinedRange

/-! ## Draws read one after the other -/

/-- `randomizeBoard` does not look at the draws it leaves. -/
theorem randomizeBoard_append : ∀ (ds : Draws) (k used : Nat) (board b : Hand) (rest e : Draws),
    randomizeBoard k used board ds = .ok b rest → randomizeBoard k used board (ds ++ e) = .ok b (rest ++ e) := by
  intro ds
  induction ds with
  | nil =>
    intro k used board b rest e h
    cases k with
    | zero => injection h with h1 h2; subst h1; subst h2; rfl
    | succ k => cases h
  | cons x xs ih =>
    intro k used board b rest e h
    cases k with
    | zero => injection h with h1 h2; subst h1; subst h2; rfl
    | succ k =>
      rw [List.cons_append, randomizeBoard_cons]
      rw [randomizeBoard_cons] at h
      split at h
      · rename_i h1
        rw [if_pos h1]
        split at h
        · rename_i h2
          rw [if_pos h2]
          exact ih _ _ _ _ _ _ h
        · rename_i h2
          rw [if_neg h2]
          exact ih _ _ _ _ _ _ h
      · cases h

/-- What it leaves is the end of the draws, and it would be content with the beginning. -/
theorem randomizeBoard_split : ∀ (ds : Draws) (k used : Nat) (board b : Hand) (rest : Draws),
    randomizeBoard k used board ds = .ok b rest → ∃ a, ds = a ++ rest ∧ randomizeBoard k used board a = .ok b [] := by
  intro ds
  induction ds with
  | nil =>
    intro k used board b rest h
    cases k with
    | zero => injection h with h1 h2; subst h1; subst h2; exact ⟨[], rfl, rfl⟩
    | succ k => cases h
  | cons x xs ih =>
    intro k used board b rest h
    cases k with
    | zero => injection h with h1 h2; subst h1; subst h2; exact ⟨[], rfl, rfl⟩
    | succ k =>
      rw [randomizeBoard_cons] at h
      split at h
      · rename_i h1
        split at h
        · rename_i h2
          obtain ⟨a, ha, hb⟩ := ih _ _ _ _ _ h
          exact ⟨x :: a, by rw [ha]; rfl, by rw [randomizeBoard_cons, if_pos h1, if_pos h2, hb]⟩
        · rename_i h2
          obtain ⟨a, ha, hb⟩ := ih _ _ _ _ _ h
          exact ⟨x :: a, by rw [ha]; rfl, by rw [randomizeBoard_cons, if_pos h1, if_neg h2, hb]⟩
      · cases h

/-- The draws are used up by completing the board once for each entry of the list, at the deal of the walk given there, and the boards are
those given there. -/
def DrawsBoards (s : Sim) : List (Walk × List Nat) → Draws → Prop
  | [], ds => ds = []
  | (w, B) :: xs, ds => ∃ rest, randomizeBoard (5 - s.fixedBoard.count) (w.used ||| s.deadMask) s.fixedBoard ds = .ok (ofCards B) rest ∧
      DrawsBoards s xs rest

open Classical in
/-- The number of sequences of `L` draws that produce the given boards, one after the other. -/
noncomputable def boardsSequences (s : Sim) (xs : List (Walk × List Nat)) (L : Nat) : Nat :=
  (drawLists L).countP fun ds => decide (DrawsBoards s xs ds)

theorem drawLists_add (i j : Nat) : drawLists (i + j) = (drawLists i).flatMap fun a => (drawLists j).map fun c => a ++ c := by
  induction i with
  | zero => simp [drawLists]
  | succ i ih =>
    rw [Nat.succ_add, drawLists, ih, drawLists, List.flatMap_assoc]
    congr 1
    funext x
    rw [List.flatMap_map, List.map_flatMap]
    congr 1
    funext a
    rw [List.map_map]
    rfl

theorem countP_eq_sum {α : Type} (l : List α) (P : α → Bool) (Q : Nat → α → Bool) (n : Nat)
    (h : ∀ x ∈ l, (if P x = true then 1 else 0) = ∑ i ∈ Finset.range n, if Q i x = true then 1 else 0) :
    l.countP P = ∑ i ∈ Finset.range n, l.countP (Q i) := by
  induction l with
  | nil => simp
  | cons x l ih =>
    rw [List.countP_cons, ih fun y hy => h y (by simp [hy]), h x (by simp)]
    simp only [List.countP_cons]
    rw [Finset.sum_add_distrib]

open Classical in
theorem boardsSequences_cons (s : Sim) (w : Walk) (B : List Nat) (xs : List (Walk × List Nat)) (L : Nat) :
    boardsSequences s ((w, B) :: xs) L = ∑ i ∈ Finset.range (L + 1), boardSequences s w B i * boardsSequences s xs (L - i) := by
  unfold boardsSequences
  rw [countP_eq_sum (drawLists L) _ (fun i ds => decide (randomizeBoard (5 - s.fixedBoard.count) (w.used ||| s.deadMask) s.fixedBoard (ds.take i) =
    .ok (ofCards B) [] ∧ DrawsBoards s xs (ds.drop i))) (L + 1)]
  · apply Finset.sum_congr rfl
    intro i hi
    have hi := Finset.mem_range.1 hi
    obtain ⟨j, rfl⟩ : ∃ j, L = i + j := ⟨L - i, by omega⟩
    rw [drawLists_add, countP_flatMap_map, Nat.add_sub_cancel_left]
    have e : ∀ a ∈ drawLists i, ((drawLists j).countP fun c => decide (randomizeBoard (5 - s.fixedBoard.count) (w.used ||| s.deadMask) s.fixedBoard
        ((a ++ c).take i) = .ok (ofCards B) [] ∧ DrawsBoards s xs ((a ++ c).drop i))) =
        if decide (randomizeBoard (5 - s.fixedBoard.count) (w.used ||| s.deadMask) s.fixedBoard a = .ok (ofCards B) []) = true then
          (drawLists j).countP fun ds => decide (DrawsBoards s xs ds) else 0 := by
      intro a ha
      have hl := ((mem_drawLists i a).1 ha).1
      have h1 : ∀ c : Draws, (a ++ c).take i = a := fun c => by rw [← hl]; exact List.take_left
      have h2 : ∀ c : Draws, (a ++ c).drop i = c := fun c => by rw [← hl]; exact List.drop_left
      simp only [h1, h2]
      split
      · rename_i h
        have h := of_decide_eq_true h
        simp only [h, true_and]
      · rename_i h
        have h : ¬ _ := fun h' => h (decide_eq_true h')
        simp only [h, false_and, decide_false]
        simp
    rw [List.map_congr_left e, sum_map_ite, Nat.mul_zero, Nat.add_zero]
    rfl
  · intro ds hds
    have hl := ((mem_drawLists L ds).1 hds).1
    by_cases hP : DrawsBoards s ((w, B) :: xs) ds
    · rw [if_pos (decide_eq_true hP)]
      obtain ⟨rest, g1, g2⟩ := hP
      obtain ⟨a, rfl, g3⟩ := randomizeBoard_split _ _ _ _ _ _ g1
      rw [List.length_append] at hl
      rw [Finset.sum_eq_single a.length]
      · rw [if_pos]
        rw [List.take_left, List.drop_left]
        exact decide_eq_true ⟨g3, g2⟩
      · intro i hi hne
        have hi := Finset.mem_range.1 hi
        rw [if_neg]
        intro hd
        obtain ⟨k1, k2⟩ := of_decide_eq_true hd
        apply hne
        have k3 := randomizeBoard_append _ _ _ _ _ _ ((a ++ rest).drop i) k1
        rw [List.take_append_drop, g1] at k3
        injection k3 with _ k4
        rw [List.nil_append] at k4
        have := congrArg List.length k4
        rw [List.length_drop, List.length_append] at this
        omega
      · intro h
        exact absurd (Finset.mem_range.2 (by omega)) h
    · rw [if_neg (by simpa using hP)]
      symm
      apply Finset.sum_eq_zero
      intro i _
      rw [if_neg]
      intro hd
      obtain ⟨k1, k2⟩ := of_decide_eq_true hd
      apply hP
      have k3 := randomizeBoard_append _ _ _ _ _ _ (ds.drop i) k1
      rw [List.take_append_drop] at k3
      exact ⟨_, k3, k2⟩

variable {ranges : List (List Combo)} {b d : Nat} {s : Sim}

theorem nonneg_term (n L : Nat) : (0 : ℝ) ≤ (n : ℝ) / 52 ^ L := by positivity

/-- C80: the outcomes are equally likely.  If the draws of cards are independent and uniform, the boards of consecutive evaluations are
independent, and uniform among the boards of the deal: any given boards come up with the product of the probabilities `1 / n`, where `n` is the
number of boards of the deal. -/
theorem C80_likely (h : McReady ranges b d s) (xs : List (Walk × List WHand × List Nat))
    (hxs : ∀ x ∈ xs, AtDeal (maskCards b) (maskCards d) x.1 x.2.1 ∧ x.2.2 ∈ boards (maskCards b) (maskCards d) x.2.1) :
    HasSum (fun L => (boardsSequences s (xs.map fun x => (x.1, x.2.2)) L : ℝ) / 52 ^ L)
      (xs.map fun x => 1 / ((boards (maskCards b) (maskCards d) x.2.1).length : ℝ)).prod := by
  induction xs with
  | nil =>
    have e : (fun L => (boardsSequences s (([] : List (Walk × List WHand × List Nat)).map fun x => (x.1, x.2.2)) L : ℝ) / 52 ^ L) =
        fun L => if L = 0 then (1 : ℝ) else 0 := by
      funext L
      unfold boardsSequences
      cases L with
      | zero => simp [drawLists, DrawsBoards]
      | succ L =>
        have : (drawLists (L + 1)).countP (fun ds => @decide (DrawsBoards s (([] : List (Walk × List WHand × List Nat)).map fun x => (x.1, x.2.2)) ds) (Classical.propDecidable _)) = 0 := by
          rw [List.countP_eq_zero]
          intro ds hds hd
          have h1 := ((mem_drawLists _ _).1 hds).1
          have h2 : ds = [] := @of_decide_eq_true _ (_) hd
          rw [h2] at h1
          cases h1
        rw [this]
        simp
    rw [e]
    exact hasSum_ite_eq 0 1
  | cons x xs ih =>
    obtain ⟨w, dd, B⟩ := x
    obtain ⟨h1, h2⟩ := hxs (w, dd, B) (by simp)
    have ih := ih fun x hx => hxs x (by simp [hx])
    have hp := C43_probability h h1 h2
    have hn1 : Summable fun L => ‖(boardSequences s w B L : ℝ) / 52 ^ L‖ := by
      simp only [Real.norm_of_nonneg (nonneg_term _ _)]
      exact hp.summable
    have hn2 : Summable fun L => ‖(boardsSequences s (xs.map fun x => (x.1, x.2.2)) L : ℝ) / 52 ^ L‖ := by
      simp only [Real.norm_of_nonneg (nonneg_term _ _)]
      exact ih.summable
    have key := tsum_mul_tsum_eq_tsum_sum_antidiagonal_of_summable_norm hn1 hn2
    have hs := (summable_norm_sum_mul_antidiagonal_of_summable_norm hn1 hn2).of_norm
    have ep : (((w, dd, B) :: xs).map fun x => 1 / ((boards (maskCards b) (maskCards d) x.2.1).length : ℝ)).prod =
        ∑' n, ∑ kl ∈ Finset.antidiagonal n, (boardSequences s w B kl.1 : ℝ) / 52 ^ kl.1 *
          ((boardsSequences s (xs.map fun x => (x.1, x.2.2)) kl.2 : ℝ) / 52 ^ kl.2) := by
      rw [← key, hp.tsum_eq, ih.tsum_eq]
      rfl
    have e : (fun L => (boardsSequences s (((w, dd, B) :: xs).map fun x => (x.1, x.2.2)) L : ℝ) / 52 ^ L) = fun L =>
        ∑ kl ∈ Finset.antidiagonal L, (boardSequences s w B kl.1 : ℝ) / 52 ^ kl.1 *
          ((boardsSequences s (xs.map fun x => (x.1, x.2.2)) kl.2 : ℝ) / 52 ^ kl.2) := by
      funext L
      rw [List.map_cons, boardsSequences_cons, Finset.Nat.sum_antidiagonal_eq_sum_range_succ
        (fun i j => (boardSequences s w B i : ℝ) / 52 ^ i * ((boardsSequences s (xs.map fun x => (x.1, x.2.2)) j : ℝ) / 52 ^ j))]
      push_cast
      rw [Finset.sum_div]
      apply Finset.sum_congr rfl
      intro i hi
      have hi := Finset.mem_range.1 hi
      rw [show (52 : ℝ) ^ L = 52 ^ i * 52 ^ (L - i) by rw [← pow_add]; congr 1; omega]
      rw [div_mul_div_comm]
    rw [e, ep]
    exact hs.hasSum

/-- C80: all deals have the same number `n` of boards, so each list of boards for `N` evaluations has the probability `(1 / n) ^ N`. -/
theorem C80_equally_likely (h : McReady ranges b d s) (xs : List (Walk × List WHand × List Nat))
    (hxs : ∀ x ∈ xs, x.2.1 ∈ deals (specRanges ranges) (maskCards b ++ maskCards d) ∧ AtDeal (maskCards b) (maskCards d) x.1 x.2.1 ∧
      x.2.2 ∈ boards (maskCards b) (maskCards d) x.2.1) :
    let free := ((List.range 52).filter fun c => c ∉ maskCards b ++ maskCards d).length - 2 * ranges.length
    HasSum (fun L => (boardsSequences s (xs.map fun x => (x.1, x.2.2)) L : ℝ) / 52 ^ L)
      ((1 / (free.choose (5 - (maskCards b).length) : ℝ)) ^ xs.length) := by
  intro free
  have := C80_likely h xs fun x hx => (hxs x hx).2
  rw [List.eq_replicate_of_mem (l := xs.map fun x => 1 / ((boards (maskCards b) (maskCards d) x.2.1).length : ℝ))
    (a := 1 / (free.choose (5 - (maskCards b).length) : ℝ)) ?_, List.prod_replicate, List.length_map] at this
  · exact this
  · intro y hy
    obtain ⟨x, hx, rfl⟩ := List.mem_map.1 hy
    rw [boards_length h.wf (hxs x hx).1]

/-- Aces against kings on a flop: any two boards in a row have the probability `1 / 990 ^ 2`. -/
example : ∃ s w, ∃ dd ∈ deals (specRanges twoHands) (maskCards flopMask ++ maskCards 0), McReady twoHands flopMask 0 s ∧
    ∀ B ∈ boards (maskCards flopMask) (maskCards 0) dd, ∀ B' ∈ boards (maskCards flopMask) (maskCards 0) dd,
      HasSum (fun L => (boardsSequences s [(w, B), (w, B')] L : ℝ) / 52 ^ L) (1 / 990 ^ 2) := by
  obtain ⟨s, hs⟩ := two_ready
  obtain ⟨x, hx⟩ := hs.legal (by decide +kernel)
  obtain ⟨w, hw, _⟩ := attempts_legal s 999 Walk.init hx
  obtain ⟨ho, hp⟩ := (randomizeHoleCards_spec s hs.crsOk.1 (w := Walk.init) (fun _ _ => rfl) x).2 true w [] hw
  obtain ⟨picks, hp⟩ := hp rfl
  rw [hs.fields.2.1, hs.fields.2.2.1] at hp
  obtain ⟨dd, hdd, hat⟩ := hs.atDeal hp ho
  refine ⟨s, w, dd, hdd, hs, fun B hB B' hB' => ?_⟩
  have := C80_equally_likely hs [(w, dd, B), (w, dd, B')] (by
    intro x hx
    simp only [List.mem_cons, List.not_mem_nil, or_false] at hx
    rcases hx with rfl | rfl
    · exact ⟨hdd, hat, hB⟩
    · exact ⟨hdd, hat, hB'⟩)
  have e : (((List.range 52).filter fun c => c ∉ maskCards flopMask ++ maskCards 0).length - 2 * twoHands.length).choose
      (5 - (maskCards flopMask).length) = 990 := by decide +kernel
  simp only [e] at this
  simpa using this

end Pokers
