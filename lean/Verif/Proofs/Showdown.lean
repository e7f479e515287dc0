import Verif.Proofs.BoardEnum
import Verif.Proofs.Scan
import Verif.Proofs.Prepare
import Verif.Props.Evaluator
import Verif.Model.Simulator
import Verif.Spec.Equity
/-!
# One deal: the board enumeration counts every showdown once
-/
namespace Pokers
open Spec Kernel

/-! ## Scores under the shortcuts -/

theorem suitMask_congr {cs ds : List Nat} {s : Nat} (h : ∀ c, c % 4 = s → (c ∈ cs ↔ c ∈ ds)) (hs : s < 4) :
    suitMask cs s = suitMask ds s := by
  unfold suitMask suitBits
  congr 1
  apply List.map_congr_left
  intro r _
  have := h (4 * r + s) (by omega)
  by_cases hc : 4 * r + s ∈ cs
  · rw [if_pos hc, if_pos (this.1 hc)]
  · rw [if_neg hc, if_neg (fun h' => hc (this.2 h'))]

/-- Exchanging a card by another one of the same rank does not change the score if neither is part of a flush. -/
theorem evaluate_swap {a b : Nat} {zs : List Nat} (ha : IsCards (a :: zs)) (hb : IsCards (b :: zs)) (hl : zs.length ≤ 8)
    (hr : rk a = rk b) (hsa : suitCnt (a :: zs) (a % 4) < 5) (hsb : suitCnt (b :: zs) (b % 4) < 5) :
    (ofCards (a :: zs)).evaluate = (ofCards (b :: zs)).evaluate := by
  have hrs : rankSum (a :: zs) = rankSum (b :: zs) := by
    unfold rankSum
    rw [List.map_cons, List.map_cons, show a / 4 = b / 4 from hr]
  have cnt : ∀ x y s, suitCnt (x :: zs) (x % 4) < 5 → suitCnt (y :: zs) (y % 4) < 5 → s < 4 → 5 ≤ suitCnt (x :: zs) s →
      s ≠ x % 4 ∧ s ≠ y % 4 := by
    intro x y s h1 h2 _ h5
    refine ⟨fun h => by subst h; omega, fun h => ?_⟩
    subst h
    rw [suitCnt_cons, if_pos rfl] at h2
    rw [suitCnt_cons] at h5
    split at h5 <;> omega
  rcases flush_cases (a :: zs) with hno | ⟨s, hs, h5⟩
  · have hno' : ∀ s < 4, suitCnt (b :: zs) s ≤ 4 := by
      intro s hs
      by_contra hc
      have := cnt b a s hsb hsa hs (by omega)
      rw [suitCnt_cons, if_neg (fun h => this.1 h.symm)] at hc
      have h2 := hno s hs
      rw [suitCnt_cons] at h2
      omega
    rw [evaluate_noflush ha.2 hno, evaluate_noflush hb.2 hno', Kernel.L, Kernel.L, hrs]
  · obtain ⟨n1, n2⟩ := cnt a b s hsa hsb hs h5
    have h5' : 5 ≤ suitCnt (b :: zs) s := by
      rw [suitCnt_cons, if_neg (fun h => n1 h.symm)] at h5
      rw [suitCnt_cons]; omega
    rw [evaluate_flush ha (by simp; omega) hs h5, evaluate_flush hb (by simp; omega) hs h5', Kernel.F, Kernel.F]
    congr 1
    apply suitMask_congr _ hs
    intro c hc
    rw [List.mem_cons, List.mem_cons]
    constructor
    · rintro (rfl | h)
      · exact absurd hc.symm n1
      · exact Or.inr h
    · rintro (rfl | h)
      · exact absurd hc.symm n2
      · exact Or.inr h

/-- The largest number of hole cards of suit `s` in one hand. -/
def holeSuits (n : Nat) (holes : Nat → Hole) (s : Nat) : Nat :=
  (List.range n).foldl (fun m i => max m (suitCnt (cardsOf (holes i)) s)) 0

theorem holeSuits_succ (n : Nat) (holes : Nat → Hole) (s : Nat) :
    holeSuits (n + 1) holes s = max (holeSuits n holes s) (suitCnt (cardsOf (holes n)) s) := by
  unfold holeSuits; rw [List.range_succ, List.foldl_append]; rfl

theorem le_holeSuits {n : Nat} (holes : Nat → Hole) (s : Nat) {i : Nat} (hi : i < n) :
    suitCnt (cardsOf (holes i)) s ≤ holeSuits n holes s := by
  induction n with
  | zero => omega
  | succ n ih =>
    rw [holeSuits_succ]
    by_cases h : i = n
    · subst h; exact le_max_right _ _
    · exact (ih (by omega)).trans (le_max_left _ _)

theorem suitCnt_pair (h : Hole) (s : Nat) : suitCnt (cardsOf h) s = (if h.1 % 4 = s then 1 else 0) + (if h.2.1 % 4 = s then 1 else 0) := by
  unfold cardsOf
  rw [suitCnt_cons, suitCnt_cons]
  simp [suitCnt]
  omega

theorem holeSuits_loop (n : Nat) (holes : Nat → Hole) (s : Nat) :
    ((List.range n).foldl (fun sc i =>
      let s1 := (holes i).1 &&& 3
      let s2 := (holes i).2.1 &&& 3
      if s1 = s2 then Function.update sc s1 (max 2 (sc s1))
      else
        let sc := Function.update sc s1 (max 1 (sc s1))
        Function.update sc s2 (max 1 (sc s2))) (fun _ => 0)) s = holeSuits n holes s := by
  induction n with
  | zero => rfl
  | succ n ih =>
    rw [List.range_succ, List.foldl_append, holeSuits_succ, ← ih, suitCnt_pair]
    generalize (List.range n).foldl _ _ = sc
    simp only [List.foldl_cons, List.foldl_nil, and3]
    generalize (holes n).1 % 4 = x
    generalize (holes n).2.1 % 4 = y
    by_cases hxy : x = y
    · subst hxy
      rw [if_pos rfl]
      by_cases hs : s = x
      · subst hs; rw [Function.update_self]; simp; exact max_comm _ _
      · rw [Function.update_of_ne hs]; simp [Ne.symm hs]
    · rw [if_neg hxy]
      by_cases hs : s = y
      · subst hs
        rw [Function.update_self, Function.update_of_ne (Ne.symm hxy)]
        simp [hxy]; exact max_comm _ _
      · rw [Function.update_of_ne hs]
        by_cases hs' : s = x
        · subst hs'; rw [Function.update_self]; simp [Ne.symm hs]; exact max_comm _ _
        · rw [Function.update_of_ne hs']; simp [Ne.symm hs, Ne.symm hs']

/-- The counters the enumeration starts with. -/
theorem suitCounts_eq (n : Nat) (holes : Nat → Hole) {bs : List Nat} (hb : IsCards bs) (hl : bs.length ≤ 5) {s : Nat} (hs : s < 4) :
    suitCounts n holes (ofCards bs) s = holeSuits n holes s + suitCnt bs s := by
  have hc := (C08_counters hb (by omega) (fun s _ => (List.countP_le_length).trans (by omega))).2.1
  have e : ∀ s < 4, ((ofCards bs).suitCount s).toNat = suitCnt bs s := by
    intro s hs
    rw [hc s hs, Int.toNat_natCast]
    unfold suitCnt
    apply List.countP_congr
    intro c _
    rw [decide_eq_true_iff, Nat.beq_eq]
  unfold suitCounts
  simp only
  generalize hsc : (List.range n).foldl _ _ = sc
  have hsc' : ∀ s, sc s = holeSuits n holes s := fun s => by rw [← hsc]; exact holeSuits_loop n holes s
  rw [← hsc' s, ← e s hs]
  rcases (show s = 0 ∨ s = 1 ∨ s = 2 ∨ s = 3 by omega) with rfl | rfl | rfl | rfl <;>
    simp [SUIT_COUNT, List.range_succ, Function.update]

/-! ## A deal -/

/-- A deal `d` and board cards that can occur together. -/
structure DealOk (board dead : List Nat) (d : List WHand) : Prop where
  isBoard : IsCards board
  len : board.length ≤ 5
  cards : IsCards (dealt d)
  legal : ∀ c ∈ dealt d, c ∉ board ++ dead

theorem mem_dealt {d : List WHand} {i : Nat} (hi : i < d.length) {c : Nat} (hc : c ∈ cardsOf (d.getD i (0, 0, 0))) : c ∈ dealt d := by
  rw [List.getD_eq_getElem _ _ hi] at hc
  exact List.mem_flatMap.2 ⟨_, List.getElem_mem hi, hc⟩

theorem cardsOf_nodup {d : List WHand} (h : (dealt d).Nodup) {i : Nat} (hi : i < d.length) :
    (cardsOf (d.getD i (0, 0, 0))).Nodup := by
  rw [List.getD_eq_getElem _ _ hi]
  unfold dealt at h
  rw [List.nodup_flatMap] at h
  exact h.1 _ (List.getElem_mem hi)

/-- Board cards that no player holds, together with the cards of a player. -/
theorem with_hole {d : List WHand} (hd : IsCards (dealt d)) {xs : List Nat} (hx : IsCards xs) (ha : ∀ c ∈ xs, c ∉ dealt d)
    {i : Nat} (hi : i < d.length) : IsCards (xs ++ cardsOf (d.getD i (0, 0, 0))) := by
  refine ⟨?_, ?_⟩
  · rw [List.nodup_append]
    refine ⟨hx.1, cardsOf_nodup hd.1 hi, ?_⟩
    intro a ha' b hb hab
    subst hab
    exact ha a ha' (mem_dealt hi hb)
  · intro c hc
    rcases List.mem_append.1 hc with hc | hc
    · exact hx.2 c hc
    · exact hd.2 c (mem_dealt hi hc)

theorem handScore_true (xs : List Nat) (h : Hole) :
    handScore (ofCards xs) (Hand.fromHoleCards h.1 h.2.1) true = (ofCards (xs ++ cardsOf h)).evaluate := by
  unfold handScore
  rw [if_pos rfl, (C03_hole_cards xs h.1 h.2.1).1]
  rfl

theorem handScore_false (xs : List Nat) (h : Hole) :
    handScore (ofCards xs) (Hand.fromHoleCards h.1 h.2.1) false = (ofCards (xs ++ cardsOf h)).evaluateWithoutFlush := by
  unfold handScore
  rw [if_neg (by decide), (C03_hole_cards xs h.1 h.2.1).1]
  rfl

/-- The hole cards by player, as used by the enumeration. -/
abbrev phOf (d : List WHand) (i : Nat) : Hole := d.getD i (0, 0, 0)

variable {M : Type}

/-- A function of the players' scores. -/
def scoreFun (hands : Nat → Hand) (Φ : (Nat → Nat) → M) (board : Hand) (flush : Bool) : M :=
  Φ (scoresOf hands board flush)

/-- A function that depends on the scores of the first `n` players only. -/
def DependsOn (n : Nat) (Φ : (Nat → Nat) → M) : Prop := ∀ sc sc' : Nat → Nat, (∀ i < n, sc i = sc' i) → Φ sc = Φ sc'

theorem scoreFun_board {d : List WHand} (hd : IsCards (dealt d)) {Φ : (Nat → Nat) → M} (hΦ : DependsOn d.length Φ)
    {ph : Nat → Hole} (hph : ∀ i < d.length, ph i = d.getD i (0, 0, 0)) :
    BoardFun (holeSuits d.length ph) (fun c => c ∉ dealt d)
      (scoreFun (fun i => Hand.fromHoleCards (ph i).1 (ph i).2.1) Φ) := by
  constructor
  · intro a b ys ha hb va vb hl hr da db
    apply hΦ
    intro i hi
    show handScore _ _ true = handScore _ _ true
    rw [handScore_true, handScore_true]
    have hsuit : ∀ x, Dead (holeSuits d.length ph) (x :: ys) (x % 4) → suitCnt (x :: (ys ++ cardsOf (ph i))) (x % 4) < 5 := by
      intro x hx
      unfold Dead at hx
      have h1 := le_holeSuits ph (x % 4) hi
      rw [← List.cons_append, suitCnt_append]
      rw [List.length_cons, hl] at hx
      omega
    have wa := with_hole hd ha va hi
    have wb := with_hole hd hb vb hi
    rw [← hph i hi] at wa wb
    exact evaluate_swap wa wb (by simp [cardsOf, hl]) hr (hsuit a da) (hsuit b db)
  · intro xs hx va hl hdead
    apply hΦ
    intro i hi
    show handScore _ _ false = handScore _ _ true
    rw [handScore_true, handScore_false]
    have w := with_hole hd hx va hi
    rw [← hph i hi] at w
    refine C04_no_flush w (fun s hs => ?_)
    have h1 := le_holeSuits ph s hi
    have h2 := hdead s hs
    unfold Dead at h2
    have e : suitCnt (xs ++ cardsOf (ph i)) s = (xs ++ cardsOf (ph i)).countP (fun c => decide (Spec.suit c = s)) := by
      unfold suitCnt
      apply List.countP_congr
      intro c _
      rw [decide_eq_true_iff, Nat.beq_eq]
    rw [← e, suitCnt_append]
    omega

theorem deck_perm {used : Nat} {cards : List Nat} (hu : ∀ c < 52, used.testBit c = true ↔ c ∈ cards) :
    (makeDeck used).Perm ((List.range 52).filter fun c => c ∉ cards) := by
  unfold makeDeck
  rw [List.filter_reverse]
  refine (List.reverse_perm _).trans (List.Perm.of_eq ?_)
  apply List.filter_congr
  intro c hc
  have hc := List.mem_range.1 hc
  rw [Bool.eq_iff_iff, decide_eq_true_iff, decide_eq_true_iff, ← hu c hc, Nat.and_comm]
  have := and_one_ne_zero c used
  constructor
  · intro h h'; exact (this.2 h') h
  · intro h; by_contra hc'; exact h (this.1 hc')

theorem makeDeck_sorted (used : Nat) : (makeDeck used).Pairwise (fun a b => rk b ≤ rk a) := by
  unfold makeDeck
  apply List.Pairwise.filter
  rw [List.pairwise_reverse]
  exact List.pairwise_lt_range.imp (fun h => Nat.div_le_div_right (by omega))

theorem range52_isCards : IsCards (List.range 52) := ⟨List.nodup_range, fun _ hc => List.mem_range.1 hc⟩

/-- C30, general form: any quantity that is computed from the scores of the players at a showdown and added up with the given
weights by the recursive enumeration is the sum over all completions of the board. -/
theorem boardEvents_sum [AddCommMonoid M] {board dead : List Nat} {d : List WHand} (h : DealOk board dead d) {Φ : (Nat → Nat) → M}
    (hΦ : DependsOn d.length Φ) {ph : Nat → Hole} (hph : ∀ i < d.length, ph i = d.getD i (0, 0, 0)) {used : Nat}
    (hu : ∀ c < 52, used.testBit c = true ↔ c ∈ board ++ dead ++ dealt d) (w : Nat) :
    evSum (scoreFun (fun i => Hand.fromHoleCards (ph i).1 (ph i).2.1) Φ) (boardEvents d.length ph w (ofCards board) used) =
      w • ((boards board dead d).map fun B => Φ fun i => (ofCards (B ++ cardsOf (ph i))).evaluate).sum := by
  set F := scoreFun (fun i => Hand.fromHoleCards (ph i).1 (ph i).2.1) Φ with hF
  have hBF := scoreFun_board h.cards hΦ hph
  have hcount : (ofCards board).count = board.length :=
    (C08_counters h.isBoard (by have := h.len; omega) (fun s _ => (List.countP_le_length).trans (by have := h.len; omega))).1
  have hdp := deck_perm hu
  have hS : S (gOf F) board (makeDeck used) (5 - board.length) =
      ((boards board dead d).map fun B => Φ fun i => (ofCards (B ++ cardsOf (ph i))).evaluate).sum := by
    rw [S_perm (gOf_perm F) hdp]
    unfold S boards completions
    rw [List.map_map]
    congr 1
    apply List.map_congr_left
    intro T _
    show Φ _ = Φ _
    congr 1
    funext i
    exact handScore_true _ _
  rw [← hS]
  unfold boardEvents
  simp only [BOARD_CARDS, hcount]
  by_cases hr : 5 - board.length = 0
  · rw [if_pos hr, evSum_cons, evSum_nil, add_zero, hr, S_zero]
  · rw [if_neg hr]
    have hN : Node (holeSuits d.length ph) (fun c => c ∉ dealt d) board (makeDeck used) (suitCounts d.length ph (ofCards board))
        (5 - board.length) 0 := by
      have hmem : ∀ c ∈ makeDeck used, c < 52 ∧ c ∉ board ++ dead ++ dealt d := by
        intro c hc
        have := hdp.mem_iff.1 hc
        rw [List.mem_filter, List.mem_range, decide_eq_true_iff] at this
        exact this
      refine ⟨⟨?_, ?_⟩, ?_, by have := h.len; omega, by omega, makeDeck_sorted used, ?_⟩
      · rw [List.drop_zero, List.nodup_append]
        refine ⟨h.isBoard.1, hdp.nodup_iff.2 (List.nodup_range.filter _), ?_⟩
        intro a ha b hb hab
        subst hab
        exact (hmem a hb).2 (by simp [ha])
      · intro c hc
        rw [List.drop_zero] at hc
        rcases List.mem_append.1 hc with hc | hc
        · exact h.isBoard.2 c hc
        · exact (hmem c hc).1
      · intro c hc hd
        rw [List.drop_zero] at hc
        rcases List.mem_append.1 hc with hc | hc
        · exact h.legal c hd (by simp [hc])
        · exact (hmem c hc).2 (by simp [hd])
      · intro s hs
        exact Or.inl (suitCounts_eq d.length ph h.isBoard h.len hs)
    exact (enumerateBoardRec_ok hBF _ _ le_rfl board (makeDeck used) _ 0 w hN).sum

/-! ## Winners -/

theorem strength_le {B : List Nat} {d : List WHand} (hd : IsCards (dealt d)) (hB : IsCards B) (hl : B.length = 5)
    (ha : ∀ c ∈ B, c ∉ dealt d) {i j : Nat} (hi : i < d.length) (hj : j < d.length) :
    (ofCards (B ++ cardsOf (d.getD j (0, 0, 0)))).evaluate ≤ (ofCards (B ++ cardsOf (d.getD i (0, 0, 0)))).evaluate ↔
      strength B d j ≤ strength B d i := by
  have hlen : ∀ k, (B ++ cardsOf (d.getD k (0, 0, 0))).length = 7 := by intro k; simp [cardsOf, hl]
  have := (C01_evaluate_order (with_hole hd hB ha hi) (with_hole hd hB ha hj) (by rw [hlen]; omega) (by rw [hlen])
    (by rw [hlen]; omega) (by rw [hlen])).1
  rw [← not_lt, this, ← not_lt]
  rfl

theorem winners_eq {B : List Nat} {d : List WHand} (hd : IsCards (dealt d)) (hB : IsCards B) (hl : B.length = 5)
    (ha : ∀ c ∈ B, c ∉ dealt d) :
    topPlayers (fun i => (ofCards (B ++ cardsOf (d.getD i (0, 0, 0)))).evaluate) d.length = winners B d := by
  rw [topPlayers_eq]
  unfold winners
  apply List.filter_congr
  intro i hi
  have hi := List.mem_range.1 hi
  rw [Bool.eq_iff_iff, decide_eq_true_iff, decide_eq_true_iff]
  constructor
  · intro H j hj; exact (strength_le hd hB hl ha hi hj).1 (H j hj)
  · intro H j hj; exact (strength_le hd hB hl ha hi hj).2 (H j hj)

theorem boards_ok {board dead : List Nat} {d : List WHand} (h : DealOk board dead d) {B : List Nat} (hB : B ∈ boards board dead d) :
    IsCards B ∧ B.length = 5 ∧ ∀ c ∈ B, c ∉ dealt d := by
  unfold boards completions at hB
  obtain ⟨T, hT, rfl⟩ := List.mem_map.1 hB
  rw [List.mem_sublistsLen] at hT
  have hm : ∀ c ∈ T, c < 52 ∧ c ∉ board ++ dead ++ dealt d := by
    intro c hc
    have := hT.1.subset hc
    rw [List.mem_filter, List.mem_range, decide_eq_true_iff] at this
    exact this
  refine ⟨⟨?_, ?_⟩, ?_, ?_⟩
  · rw [List.nodup_append]
    refine ⟨h.isBoard.1, (List.nodup_range.filter _).sublist hT.1, ?_⟩
    intro a ha b hb hab
    subst hab
    exact (hm a hb).2 (by simp [ha])
  · intro c hc
    rcases List.mem_append.1 hc with hc | hc
    · exact h.isBoard.2 c hc
    · exact (hm c hc).1
  · rw [List.length_append, hT.2]
    have := h.len
    omega
  · intro c hc hd
    rcases List.mem_append.1 hc with hc | hc
    · exact h.legal c hd (by simp [hc])
    · exact (hm c hc).2 (by simp [hd])

/-! ## The effect of `enumerate_board` -/

theorem foldl_evaluateHands (n : Nat) (hands : Nat → Hand) (lookup : Nat → Nat) (es : List Ev) : ∀ st : Batch × HandStats,
    tallyOf (es.foldl (fun st e => evaluateHands n hands e.weight e.board lookup e.flush st) st) =
      tallyOf st + evSum (scoreFun hands (fun sc => contrib n lookup (topPlayers sc n))) es ∧
    (es.foldl (fun st e => evaluateHands n hands e.weight e.board lookup e.flush st) st).1.playerIds = st.1.playerIds ∧
    (es.foldl (fun st e => evaluateHands n hands e.weight e.board lookup e.flush st) st).1.evalCount = st.1.evalCount + es.length ∧
    ((∀ k, Pristine (st.2 k)) →
      ∀ k, Pristine ((es.foldl (fun st e => evaluateHands n hands e.weight e.board lookup e.flush st) st).2 k)) := by
  induction es with
  | nil => intro st; exact ⟨by rw [evSum_nil, add_zero]; rfl, rfl, rfl, fun h => h⟩
  | cons e es ih =>
    intro st
    rw [List.foldl_cons]
    obtain ⟨h1, h2, h3, h4⟩ := ih (evaluateHands n hands e.weight e.board lookup e.flush st)
    obtain ⟨g1, g2, g3⟩ := evaluateHands_rest n hands e.weight e.board lookup e.flush st
    refine ⟨?_, h2.trans g1, ?_, fun h => h4 (g3 h)⟩
    · rw [h1, evaluateHands_tally, evSum_cons, add_assoc]; rfl
    · rw [h3, g2, List.length_cons]; omega

/-- The index of the counters of player `i`'s hand. -/
abbrev cellIndex (ph : Nat → Hole) (i : Nat) : Nat := NUM_HANDS * i + getCardIndex (ph i).1 (ph i).2.1

theorem contrib_congr {n : Nat} {l l' : Nat → Nat} {W : List Nat} (h : ∀ i < n, l i = l' i) (hW : ∀ i ∈ W, i < n) :
    contrib n l W = contrib n l' W := by
  unfold contrib
  have e1 : ∀ c : Cell, ((List.range n).map fun i => (Pi.single (l i) c : ℕ → Cell)) = (List.range n).map fun i => Pi.single (l' i) c :=
    fun c => List.map_congr_left fun i hi => by rw [h i (List.mem_range.1 hi)]
  have e2 : ∀ c : Cell, (W.map fun i => (Pi.single (l i) c : ℕ → Cell)) = W.map fun i => Pi.single (l' i) c :=
    fun c => List.map_congr_left fun i hi => by rw [h i (hW i hi)]
  rw [e1, e2, e2]

/-- `enumerate_board` adds, for every completion of the board, the contribution of the showdown, times the weight of the deal. -/
theorem enumerateBoard_tally (s : Sim) {board dead : List Nat} {d : List WHand} (h : DealOk board dead d) (hn : s.nPlayers = d.length)
    (hfb : s.fixedBoard = ofCards board) {ph : Nat → Hole} (hph : ∀ i < d.length, ph i = d.getD i (0, 0, 0)) {used : Nat}
    (hu : ∀ c < 52, used.testBit c = true ↔ c ∈ board ++ dead ++ dealt d) (w : Nat) (st : Batch × HandStats)
    (hid : ∀ i < d.length, st.1.playerIds i = i) :
    tallyOf (s.enumerateBoard ph w used st) =
      tallyOf st + w • ((boards board dead d).map fun B => contrib d.length (cellIndex (phOf d)) (winners B d)).sum ∧
    (s.enumerateBoard ph w used st).1.playerIds = st.1.playerIds ∧
    (s.enumerateBoard ph w used st).1.evalCount = st.1.evalCount + (boardEvents d.length ph w s.fixedBoard used).length ∧
    ((∀ k, Pristine (st.2 k)) → ∀ k, Pristine ((s.enumerateBoard ph w used st).2 k)) := by
  unfold Sim.enumerateBoard
  simp only
  rw [hn]
  obtain ⟨h1, h2, h3, h4⟩ := foldl_evaluateHands d.length (fun i => Hand.fromHoleCards (ph i).1 (ph i).2.1)
    (fun i => NUM_HANDS * st.1.playerIds i + getCardIndex (ph i).1 (ph i).2.1)
    (boardEvents d.length ph w s.fixedBoard used) st
  refine ⟨?_, h2, h3, h4⟩
  rw [h1, hfb, boardEvents_sum h (fun sc sc' hs => by rw [topPlayers_congr hs]) hph hu w]
  congr 3
  apply List.map_congr_left
  intro B hB
  obtain ⟨b1, b2, b3⟩ := boards_ok h hB
  rw [← winners_eq h.cards b1 b2 b3]
  have e : topPlayers (fun i => (ofCards (B ++ cardsOf (ph i))).evaluate) d.length =
      topPlayers (fun i => (ofCards (B ++ cardsOf (d.getD i (0, 0, 0)))).evaluate) d.length :=
    topPlayers_congr fun i hi => by rw [hph i hi]
  rw [e]
  apply contrib_congr
  · intro i hi
    rw [hid i hi]
    unfold cellIndex phOf
    rw [hph i hi]
  · intro i hi; exact topPlayers_lt hi

end Pokers
