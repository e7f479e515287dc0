import Verif.Proofs.SuitSymmetry
/-!
# Sums over the showdowns of related games

One more card on the board, one more dead card, a range in two parts.
-/
namespace Spec
open Pokers

variable {M : Type} [AddCommMonoid M]

theorem sum_map_comm {α β : Type} (f : α → β → M) (l : List α) (m : List β) :
    (l.map fun a => (m.map fun b => f a b).sum).sum = (m.map fun b => (l.map fun a => f a b).sum).sum := by
  induction l with
  | nil => simp
  | cons a l ih =>
    rw [List.map_cons, List.sum_cons, ih]
    rw [← List.sum_map_add]
    rfl

theorem sum_filter_map {α : Type} (p : α → Bool) (f : α → M) (l : List α) :
    ((l.filter p).map f).sum = (l.map fun a => if p a = true then f a else 0).sum := by
  induction l with
  | nil => rfl
  | cons a l ih =>
    rw [List.map_cons, List.sum_cons, ← ih]
    by_cases h : p a = true
    · rw [List.filter_cons_of_pos h, if_pos h, List.map_cons, List.sum_cons]
    · rw [List.filter_cons_of_neg h, if_neg h, zero_add]

theorem sum_map_smul {α : Type} (n : Nat) (f : α → M) (l : List α) : (l.map fun a => n • f a).sum = n • (l.map f).sum := by
  induction l with
  | nil => simp
  | cons a l ih => rw [List.map_cons, List.sum_cons, ih, List.map_cons, List.sum_cons, smul_add]

/-! ## Choosing one card first -/

/-- Taking one element and then `m` others counts every set of `m + 1` elements `m + 1` times. -/
theorem sum_first {α : Type} [DecidableEq α] : ∀ (l : List α) (_ : l.Nodup) (m : Nat) (F : List α → M)
    (_ : ∀ x y, x.Perm y → F x = F y),
    (l.map fun c => (((l.erase c).sublistsLen m).map fun S => F (c :: S)).sum).sum = (m + 1) • ((l.sublistsLen (m + 1)).map F).sum := by
  intro l
  induction l with
  | nil => intro _ m F _; simp
  | cons a l ih =>
    intro hn m F hF
    rw [List.nodup_cons] at hn
    have hrest : (l.map fun c => ((((a :: l).erase c).sublistsLen m).map fun S => F (c :: S)).sum) =
        l.map fun c => (((a :: l.erase c).sublistsLen m).map fun S => F (c :: S)).sum := by
      apply List.map_congr_left
      intro c hc
      have : a ≠ c := fun e => hn.1 (e ▸ hc)
      rw [List.erase_cons_tail (by simpa using this)]
    rw [List.map_cons, List.sum_cons, List.erase_cons_head, hrest, List.sublistsLen_succ_cons, List.map_append, List.sum_append, smul_add,
      ← ih hn.2 m F hF]
    rw [List.map_map]
    cases m with
    | zero => simp [add_comm, Function.comp_def]
    | succ m =>
      have e : (l.map fun c => (((a :: l.erase c).sublistsLen (m + 1)).map fun S => F (c :: S)).sum) =
          l.map fun c => (((l.erase c).sublistsLen (m + 1)).map fun S => F (c :: S)).sum +
            (((l.erase c).sublistsLen m).map fun S => F (a :: c :: S)).sum := by
        apply List.map_congr_left
        intro c _
        rw [List.sublistsLen_succ_cons, List.map_append, List.sum_append, List.map_map]
        congr 2
        apply List.map_congr_left
        intro S _
        exact hF _ _ (List.Perm.swap a c S)
      rw [e, List.sum_map_add, ih hn.2 m (fun S => F (a :: S)) (fun x y h => hF _ _ (h.cons a))]
      have e2 : ((l.sublistsLen (m + 1)).map (F ∘ List.cons a)).sum = ((l.sublistsLen (m + 1)).map fun S => F (a :: S)).sum := rfl
      rw [e2, succ_nsmul (((l.sublistsLen (m + 1)).map fun S => F (a :: S)).sum) (m + 1)]
      abel

/-- Leaving out one element and then taking `m` others counts every set of `m` elements once for each element outside. -/
theorem sum_without {α : Type} [DecidableEq α] : ∀ (l : List α) (_ : l.Nodup) (m : Nat) (F : List α → M),
    (l.map fun c => (((l.erase c).sublistsLen m).map F).sum).sum = (l.length - m) • ((l.sublistsLen m).map F).sum := by
  intro l
  induction l with
  | nil => intro _ m F; simp
  | cons a l ih =>
    intro hn m F
    rw [List.nodup_cons] at hn
    have hrest : (l.map fun c => ((((a :: l).erase c).sublistsLen m).map F).sum) =
        l.map fun c => (((a :: l.erase c).sublistsLen m).map F).sum := by
      apply List.map_congr_left
      intro c hc
      have : a ≠ c := fun e => hn.1 (e ▸ hc)
      rw [List.erase_cons_tail (by simpa using this)]
    rw [List.map_cons, List.sum_cons, List.erase_cons_head, hrest]
    cases m with
    | zero =>
      simp only [List.sublistsLen_zero, List.map_cons, List.map_nil, List.sum_cons, List.sum_nil, add_zero, Nat.sub_zero,
        List.length_cons, List.map_const', List.sum_replicate]
      rw [succ_nsmul, add_comm]
    | succ m =>
      have e : (l.map fun c => (((a :: l.erase c).sublistsLen (m + 1)).map F).sum) =
          l.map fun c => (((l.erase c).sublistsLen (m + 1)).map F).sum + (((l.erase c).sublistsLen m).map fun S => F (a :: S)).sum := by
        apply List.map_congr_left
        intro c _
        rw [List.sublistsLen_succ_cons, List.map_append, List.sum_append, List.map_map]
        rfl
      rw [e, List.sum_map_add, ih hn.2 (m + 1) F, ih hn.2 m (fun S => F (a :: S)), List.sublistsLen_succ_cons, List.map_append,
        List.sum_append, List.map_map, List.length_cons, Nat.add_sub_add_right, smul_add]
      have e2 : ((l.sublistsLen m).map (F ∘ List.cons a)).sum = ((l.sublistsLen m).map fun S => F (a :: S)).sum := rfl
      rw [e2]
      by_cases h : m + 1 ≤ l.length
      · have e3 : l.length - m = (l.length - (m + 1)) + 1 := by omega
        rw [e3, succ_nsmul, succ_nsmul]
        abel
      · have e3 : l.sublistsLen (m + 1) = [] := List.sublistsLen_of_length_lt (by omega)
        rw [e3]
        simp

/-! ## The showdowns -/

/-- The sum of `f` over the showdowns. -/
def overShows (f : List WHand × List Nat → M) (ranges : List (List WHand)) (board dead : List Nat) : M :=
  ((showdowns ranges board dead).map f).sum

/-- The cards that are not among `used`. -/
def leftCards (used : List Nat) : List Nat := (List.range 52).filter fun c => c ∉ used

theorem leftCards_nodup (used : List Nat) : (leftCards used).Nodup := List.nodup_range.filter _

theorem mem_leftCards {used : List Nat} {c : Nat} : c ∈ leftCards used ↔ c < 52 ∧ c ∉ used := by
  unfold leftCards
  rw [List.mem_filter, List.mem_range, decide_eq_true_iff]

theorem leftCards_congr {used used' : List Nat} (h : ∀ c < 52, c ∈ used ↔ c ∈ used') : leftCards used = leftCards used' := by
  unfold leftCards
  apply List.filter_congr
  intro c hc
  rw [decide_eq_decide, h c (List.mem_range.1 hc)]

theorem leftCards_cons {used : List Nat} (c : Nat) : leftCards (c :: used) = (leftCards used).erase c := by
  rw [(leftCards_nodup used).erase_eq_filter]
  unfold leftCards
  rw [List.filter_filter]
  apply List.filter_congr
  intro x _
  rw [Bool.eq_iff_iff, Bool.and_eq_true, decide_eq_true_iff, decide_eq_true_iff, bne_iff_ne, List.mem_cons]
  tauto

theorem leftCards_append (used used' : List Nat) : leftCards (used ++ used') = (leftCards used).filter fun c => c ∉ used' := by
  unfold leftCards
  rw [List.filter_filter]
  apply List.filter_congr
  intro x _
  rw [Bool.eq_iff_iff, Bool.and_eq_true, decide_eq_true_iff, decide_eq_true_iff, decide_eq_true_iff, List.mem_append]
  tauto

theorem overShows_eq (f : List WHand × List Nat → M) (ranges : List (List WHand)) (board dead : List Nat) :
    overShows f ranges board dead = ((deals ranges (board ++ dead)).map fun D =>
      (((leftCards (board ++ dead ++ dealt D)).sublistsLen (5 - board.length)).map fun S => f (D, board ++ S)).sum).sum := by
  unfold overShows showdowns
  rw [sum_flatMap_map]
  congr 1
  apply List.map_congr_left
  intro D _
  rw [List.map_map]
  unfold boards completions
  rw [List.map_map]
  rfl

theorem deals_congr (ranges : List (List WHand)) {blocked blocked' : List Nat} (h : ∀ c, c ∈ blocked ↔ c ∈ blocked') :
    deals ranges blocked = deals ranges blocked' := by
  unfold deals
  apply List.filter_congr
  intro D _
  rw [decide_eq_decide]
  unfold Legal
  simp only [h]

theorem deals_cons (ranges : List (List WHand)) (c : Nat) (blocked : List Nat) :
    deals ranges (c :: blocked) = (deals ranges blocked).filter fun D => c ∉ dealt D := by
  unfold deals
  rw [List.filter_filter]
  apply List.filter_congr
  intro D _
  rw [Bool.eq_iff_iff, Bool.and_eq_true, decide_eq_true_iff, decide_eq_true_iff, decide_eq_true_iff]
  unfold Legal
  constructor
  · rintro ⟨h1, h2⟩
    exact ⟨fun hc => h2 c hc (by simp), h1, fun x hx hm => h2 x hx (by simp [hm])⟩
  · rintro ⟨h1, h2, h3⟩
    refine ⟨h2, fun x hx hm => ?_⟩
    rcases List.mem_cons.1 hm with rfl | hm
    · exact h1 hx
    · exact h3 x hx hm

/-- The order of the cards of the board does not matter. -/
theorem overShows_board {f : List WHand × List Nat → M} (hf : ∀ D B B', B.Perm B' → f (D, B) = f (D, B'))
    (ranges : List (List WHand)) {board board' dead dead' : List Nat} (hb : board.Perm board') (hd : dead.Perm dead') :
    overShows f ranges board dead = overShows f ranges board' dead' := by
  rw [overShows_eq, overShows_eq, deals_congr ranges (blocked := board ++ dead) (blocked' := board' ++ dead')
    (fun c => by rw [List.mem_append, List.mem_append, hb.mem_iff, hd.mem_iff])]
  congr 1
  apply List.map_congr_left
  intro D _
  rw [leftCards_congr (used := board ++ dead ++ dealt D) (used' := board' ++ dead' ++ dealt D)
    (fun c _ => by simp only [List.mem_append, hb.mem_iff, hd.mem_iff]), hb.length_eq]
  congr 1
  apply List.map_congr_left
  intro S _
  exact hf _ _ _ (hb.append_right S)

/-- The sums over one more card, exchanged with the sum over the deals. -/
theorem sum_next (ranges : List (List WHand)) (used : List Nat) (G : Nat → List WHand → M) :
    ((leftCards used).map fun c => ((deals ranges (c :: used)).map fun D => G c D).sum).sum =
      ((deals ranges used).map fun D => ((leftCards (used ++ dealt D)).map fun c => G c D).sum).sum := by
  have e : ((leftCards used).map fun c => ((deals ranges (c :: used)).map fun D => G c D).sum) =
      (leftCards used).map fun c => ((deals ranges used).map fun D => if c ∉ dealt D then G c D else 0).sum := by
    apply List.map_congr_left
    intro c _
    rw [deals_cons, sum_filter_map]
    simp only [decide_eq_true_iff]
  rw [e, sum_map_comm]
  congr 1
  apply List.map_congr_left
  intro D _
  rw [leftCards_append, sum_filter_map]
  simp only [decide_eq_true_iff]

/-- The next card of the board. -/
theorem overShows_street {f : List WHand × List Nat → M} (hf : ∀ D B B', B.Perm B' → f (D, B) = f (D, B'))
    (ranges : List (List WHand)) (board dead : List Nat) (h5 : board.length < 5) :
    ((leftCards (board ++ dead)).map fun c => overShows f ranges (c :: board) dead).sum =
      (5 - board.length) • overShows f ranges board dead := by
  simp only [overShows_eq]
  have e := sum_next ranges (board ++ dead) fun c D =>
    (((leftCards (c :: board ++ dead ++ dealt D)).sublistsLen (5 - (c :: board).length)).map fun S => f (D, c :: board ++ S)).sum
  refine Eq.trans e ?_
  rw [← sum_map_smul]
  congr 1
  apply List.map_congr_left
  intro D _
  obtain ⟨m, hm⟩ : ∃ m, 5 - board.length = m + 1 := ⟨4 - board.length, by omega⟩
  rw [hm, ← sum_first _ (leftCards_nodup _) m (fun S => f (D, board ++ S)) (fun x y h => hf _ _ _ (h.append_left board))]
  congr 1
  apply List.map_congr_left
  intro c _
  have e1 : leftCards (c :: board ++ dead ++ dealt D) = (leftCards (board ++ dead ++ dealt D)).erase c := leftCards_cons c
  rw [e1, show 5 - (c :: board).length = m by rw [List.length_cons]; omega]
  congr 1
  apply List.map_congr_left
  intro S _
  apply hf
  rw [List.cons_append]
  exact List.perm_middle.symm

/-- One more dead card. -/
theorem overShows_burn (f : List WHand × List Nat → M) (ranges : List (List WHand)) (board dead : List Nat)
    {N : Nat} (hN : ∀ D ∈ deals ranges (board ++ dead), (leftCards (board ++ dead ++ dealt D)).length = N) :
    ((leftCards (board ++ dead)).map fun c => overShows f ranges board (c :: dead)).sum =
      (N - (5 - board.length)) • overShows f ranges board dead := by
  simp only [overShows_eq]
  have e0 : ((leftCards (board ++ dead)).map fun c => ((deals ranges (board ++ c :: dead)).map fun D =>
      (((leftCards (board ++ c :: dead ++ dealt D)).sublistsLen (5 - board.length)).map fun S => f (D, board ++ S)).sum).sum) =
      (leftCards (board ++ dead)).map fun c => ((deals ranges (c :: (board ++ dead))).map fun D =>
        ((((leftCards (board ++ dead ++ dealt D)).erase c).sublistsLen (5 - board.length)).map fun S => f (D, board ++ S)).sum).sum := by
    apply List.map_congr_left
    intro c _
    rw [deals_congr ranges (blocked := board ++ c :: dead) (blocked' := c :: (board ++ dead)) (fun x => by
      simp only [List.mem_append, List.mem_cons]; tauto)]
    congr 1
    apply List.map_congr_left
    intro D _
    rw [← leftCards_cons, leftCards_congr (used := board ++ c :: dead ++ dealt D) (used' := c :: (board ++ dead ++ dealt D)) (fun x _ => by
      simp only [List.mem_append, List.mem_cons]; tauto)]
  rw [e0, sum_next ranges (board ++ dead) fun c D =>
    ((((leftCards (board ++ dead ++ dealt D)).erase c).sublistsLen (5 - board.length)).map fun S => f (D, board ++ S)).sum,
    ← sum_map_smul]
  congr 1
  apply List.map_congr_left
  intro D hD
  rw [sum_without _ (leftCards_nodup _), hN D hD]

/-! ## A range in two parts -/

theorem sum_choices {α : Type} (R R' : List α) (f : List α → M) : ∀ (pre post : List (List α)),
    ((choices (pre ++ (R ++ R') :: post)).map f).sum =
      ((choices (pre ++ R :: post)).map f).sum + ((choices (pre ++ R' :: post)).map f).sum := by
  intro pre
  induction pre generalizing f with
  | nil =>
    intro post
    simp only [List.nil_append, choices, List.flatMap_append, List.map_append, List.sum_append]
  | cons r pre ih =>
    intro post
    simp only [List.cons_append, choices, sum_flatMap_map, List.map_map]
    rw [← List.sum_map_add]
    congr 1
    apply List.map_congr_left
    intro h _
    exact ih (f ∘ (h :: ·)) post

theorem overShows_split (f : List WHand × List Nat → M) (R R' : List WHand) (pre post : List (List WHand)) (board dead : List Nat) :
    overShows f (pre ++ (R ++ R') :: post) board dead =
      overShows f (pre ++ R :: post) board dead + overShows f (pre ++ R' :: post) board dead := by
  simp only [overShows_eq]
  unfold deals
  simp only [sum_filter_map]
  exact sum_choices R R' _ pre post

/-! ## Weights -/

/-- The hand with `k` times its weight. -/
def scaleHand (k : Nat) (h : WHand) : WHand := (h.1, h.2.1, k * h.2.2)

theorem choices_modify {α : Type} (g : α → α) (R : List α) : ∀ (pre post : List (List α)),
    choices (pre ++ R.map g :: post) = (choices (pre ++ R :: post)).map fun D => D.modify pre.length g := by
  intro pre
  induction pre with
  | nil =>
    intro post
    simp only [List.nil_append, choices, List.flatMap_map, List.map_flatMap, List.map_map]
    rfl
  | cons r pre ih =>
    intro post
    simp only [List.cons_append, choices, ih, List.map_flatMap, List.map_map]
    rfl

theorem dealt_scale (k p : Nat) (D : List WHand) : dealt (D.modify p (scaleHand k)) = dealt D := by
  unfold dealt
  induction D generalizing p with
  | nil => cases p <;> rfl
  | cons h D ih =>
    cases p with
    | zero => rfl
    | succ p =>
      rw [List.modify_succ_cons, List.flatMap_cons, List.flatMap_cons, ih]

theorem dealWeight_scale (k : Nat) : ∀ {p : Nat} {D : List WHand} (_ : p < D.length),
    Spec.dealWeight (D.modify p (scaleHand k)) = k * Spec.dealWeight D := by
  intro p D
  induction D generalizing p with
  | nil => intro h; simp at h
  | cons h D ih =>
    intro hp
    unfold Spec.dealWeight at ih ⊢
    cases p with
    | zero => simp [scaleHand, Nat.mul_assoc]
    | succ p =>
      rw [List.modify_succ_cons, List.map_cons, List.prod_cons, ih (by simpa using hp), List.map_cons, List.prod_cons]
      ring

theorem getD_scale (k p i : Nat) (D : List WHand) : ((D.modify p (scaleHand k)).getD i (0, 0, 0)).1 = (D.getD i (0, 0, 0)).1 ∧
    ((D.modify p (scaleHand k)).getD i (0, 0, 0)).2.1 = (D.getD i (0, 0, 0)).2.1 := by
  rw [List.getD_eq_getElem?_getD, List.getD_eq_getElem?_getD, List.getElem?_modify]
  cases D[i]? with
  | none => exact ⟨rfl, rfl⟩
  | some h => by_cases e : p = i <;> simp [e, scaleHand]

theorem winners_scale (k p : Nat) (B : List Nat) (D : List WHand) : winners B (D.modify p (scaleHand k)) = winners B D := by
  have e : ∀ i, strength B (D.modify p (scaleHand k)) i = strength B D i := by
    intro i
    unfold strength cardsOf
    rw [(getD_scale k p i D).1, (getD_scale k p i D).2]
  unfold winners
  simp only [List.length_modify, e]

theorem holds_scale (k p q x y : Nat) (D : List WHand) : Holds q x y (D.modify p (scaleHand k)) ↔ Holds q x y D := by
  unfold Holds
  rw [List.length_modify, (getD_scale k p q D).1, (getD_scale k p q D).2]

/-- A range with `k` times its weights. -/
theorem overShows_weights {f g : List WHand × List Nat → M} {k : Nat} (R : List WHand) (pre post : List (List WHand))
    (board dead : List Nat)
    (hf : ∀ D B, D.length = pre.length + 1 + post.length → f (D.modify pre.length (scaleHand k), B) = g (D, B)) :
    overShows f (pre ++ R.map (scaleHand k) :: post) board dead = overShows g (pre ++ R :: post) board dead := by
  have hd : deals (pre ++ R.map (scaleHand k) :: post) (board ++ dead) =
      (deals (pre ++ R :: post) (board ++ dead)).map fun D => D.modify pre.length (scaleHand k) := by
    unfold deals
    rw [choices_modify, List.filter_map]
    congr 1
    apply List.filter_congr
    intro D _
    show decide (Legal _ (D.modify _ _)) = _
    rw [decide_eq_decide]
    unfold Legal
    rw [dealt_scale]
  rw [overShows_eq, overShows_eq, hd, List.map_map]
  congr 1
  apply List.map_congr_left
  intro D hD
  show (List.map (fun S => f (D.modify pre.length (scaleHand k), board ++ S))
    (List.sublistsLen (5 - board.length) (leftCards (board ++ dead ++ dealt (D.modify pre.length (scaleHand k)))))).sum = _
  rw [dealt_scale]
  congr 1
  apply List.map_congr_left
  intro S _
  apply hf
  unfold deals at hD
  rw [choices_length (List.mem_filter.1 hD).1, List.length_append, List.length_cons]
  omega

theorem overShows_scale {f : List WHand × List Nat → M} {k : Nat} (R : List WHand) (pre post : List (List WHand)) (board dead : List Nat)
    (hf : ∀ D B, D.length = pre.length + 1 + post.length → f (D.modify pre.length (scaleHand k), B) = k • f (D, B)) :
    overShows f (pre ++ R.map (scaleHand k) :: post) board dead = k • overShows f (pre ++ R :: post) board dead := by
  rw [overShows_weights (g := fun s => k • f s) R pre post board dead hf]
  unfold overShows
  rw [sum_map_smul]

end Spec
