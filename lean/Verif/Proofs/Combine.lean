import Mathlib.Data.Multiset.Bind
import Verif.Proofs.Bits
import Verif.Model.Simulator
import Verif.Spec.Equity
/-!
Combined ranges describe the same deals as the ranges they are made of.
-/
namespace Pokers
open CombinedRange Sim

/-- The deals described by a list of combined ranges: one combo per range, no card used twice. -/
def dealsOf : List CombinedRange → Nat → (Nat → Hole) → Multiset (Nat × (Nat → Hole))
  | [], u, ph => {(u, ph)}
  | cr :: rest, u, ph => (cr.combos : Multiset JointCombo).bind fun c =>
      if u &&& c.mask ≠ 0 then 0 else dealsOf rest (u ||| c.mask) (writeHands cr c ph)

/-- The players of a combined range. -/
def playersOf (cr : CombinedRange) : List Nat := (List.range cr.playerCount).map cr.players

theorem writeHands_eq (cr : CombinedRange) (c : JointCombo) (ph : Nat → Hole) :
    writeHands cr c ph = (List.range cr.playerCount).foldl
      (fun ph j => Function.update ph (cr.players j) (c.holeCards j)) ph := rfl

theorem update_foldl_comm (l : List Nat) (f : Nat → Nat) (g : Nat → Hole) (p : Nat) (h : Hole) (hp : ∀ j ∈ l, f j ≠ p) :
    ∀ ph : Nat → Hole, l.foldl (fun ph j => Function.update ph (f j) (g j)) (Function.update ph p h) =
      Function.update (l.foldl (fun ph j => Function.update ph (f j) (g j)) ph) p h := by
  induction l with
  | nil => intro ph; rfl
  | cons a l ih =>
    intro ph
    rw [List.foldl_cons, List.foldl_cons, Function.update_comm (hp a (by simp)).symm,
      ih (fun j hj => hp j (by simp [hj]))]

theorem foldl_update_comm (l m : List Nat) (f f' : Nat → Nat) (g g' : Nat → Hole) (hd : ∀ j ∈ l, ∀ k ∈ m, f j ≠ f' k) :
    ∀ ph : Nat → Hole, l.foldl (fun ph j => Function.update ph (f j) (g j))
        (m.foldl (fun ph j => Function.update ph (f' j) (g' j)) ph) =
      m.foldl (fun ph j => Function.update ph (f' j) (g' j)) (l.foldl (fun ph j => Function.update ph (f j) (g j)) ph) := by
  induction m with
  | nil => intro ph; rfl
  | cons a m ih =>
    intro ph
    rw [List.foldl_cons, List.foldl_cons, ih (fun j hj k hk => hd j hj k (by simp [hk])),
      update_foldl_comm l f g _ _ (fun j hj => hd j hj a (by simp))]

theorem writeHands_comm (a b : CombinedRange) (c d : JointCombo) (ph : Nat → Hole) (hd : (playersOf a).Disjoint (playersOf b)) :
    writeHands b d (writeHands a c ph) = writeHands a c (writeHands b d ph) := by
  rw [writeHands_eq, writeHands_eq, writeHands_eq, writeHands_eq]
  apply foldl_update_comm
  intro j hj k hk he
  exact hd (List.mem_map.2 ⟨k, hk, rfl⟩) (List.mem_map.2 ⟨j, hj, he⟩)

theorem dealsOf_swap (a b : CombinedRange) (rest : List CombinedRange) (u : Nat) (ph : Nat → Hole)
    (hd : (playersOf a).Disjoint (playersOf b)) :
    dealsOf (a :: b :: rest) u ph = dealsOf (b :: a :: rest) u ph := by
  have h1 : dealsOf (a :: b :: rest) u ph = (a.combos : Multiset JointCombo).bind fun c =>
      (b.combos : Multiset JointCombo).bind fun d =>
        if u &&& c.mask = 0 ∧ u &&& d.mask = 0 ∧ c.mask &&& d.mask = 0 then
          dealsOf rest (u ||| c.mask ||| d.mask) (writeHands b d (writeHands a c ph)) else 0 := by
    rw [dealsOf]
    apply Multiset.bind_congr
    intro c _
    by_cases hc : u &&& c.mask = 0
    · rw [if_neg (not_not.2 hc), dealsOf]
      apply Multiset.bind_congr
      intro d _
      by_cases hcd : (u ||| c.mask) &&& d.mask = 0
      · have := (or_and_eq_zero _ _ _).1 hcd
        rw [if_neg (not_not.2 hcd), if_pos ⟨hc, this.1, this.2⟩]
      · rw [if_pos hcd, if_neg (fun h => hcd ((or_and_eq_zero _ _ _).2 h.2))]
    · rw [if_pos hc]
      symm
      simp [hc]
  have h2 : dealsOf (b :: a :: rest) u ph = (b.combos : Multiset JointCombo).bind fun d =>
      (a.combos : Multiset JointCombo).bind fun c =>
        if u &&& c.mask = 0 ∧ u &&& d.mask = 0 ∧ c.mask &&& d.mask = 0 then
          dealsOf rest (u ||| c.mask ||| d.mask) (writeHands b d (writeHands a c ph)) else 0 := by
    rw [dealsOf]
    apply Multiset.bind_congr
    intro d _
    by_cases hd' : u &&& d.mask = 0
    · rw [if_neg (not_not.2 hd'), dealsOf]
      apply Multiset.bind_congr
      intro c _
      by_cases hcd : (u ||| d.mask) &&& c.mask = 0
      · have := (or_and_eq_zero _ _ _).1 hcd
        rw [if_neg (not_not.2 hcd), if_pos ⟨this.1, hd', by rw [Nat.and_comm]; exact this.2⟩, writeHands_comm a b c d ph hd,
          Nat.or_assoc, Nat.or_comm d.mask, ← Nat.or_assoc]
      · rw [if_pos hcd, if_neg (fun h => hcd ((or_and_eq_zero _ _ _).2 ⟨h.1, by rw [Nat.and_comm]; exact h.2.2⟩))]
    · rw [if_pos hd']
      symm
      simp [hd']
  rw [h1, h2, Multiset.bind_bind]

theorem dealsOf_perm {xs ys : List CombinedRange} (h : xs.Perm ys)
    (hp : xs.Pairwise fun a b => (playersOf a).Disjoint (playersOf b)) :
    ∀ u ph, dealsOf xs u ph = dealsOf ys u ph := by
  induction h with
  | nil => intros; rfl
  | cons a _ ih =>
    intro u ph
    rw [dealsOf, dealsOf]
    apply Multiset.bind_congr
    intro c _
    rw [ih (List.pairwise_cons.1 hp).2]
  | swap a b l =>
    intro u ph
    exact dealsOf_swap _ _ _ _ _ ((List.pairwise_cons.1 hp).1 a (by simp))
  | trans h1 _ ih1 ih2 =>
    intro u ph
    rw [ih1 hp, ih2 ((h1.pairwise_iff (fun h => h.symm)).1 hp)]

theorem copyLoop_eq {α : Type} (dst src : Nat → α) (off : Nat) : ∀ (n : Nat) (k : Nat),
    copyLoop dst src off n k = if off ≤ k ∧ k < off + n then src (k - off) else dst k := by
  intro n
  induction n with
  | zero => intro k; rw [if_neg (by omega)]; rfl
  | succ n ih =>
    intro k
    have : copyLoop dst src off (n + 1) = Function.update (copyLoop dst src off n) (off + n) (src n) := by
      rw [copyLoop, List.range_succ, List.foldl_append]; rfl
    rw [this, Function.update_apply, ih]
    by_cases hk : k = off + n
    · subst hk
      rw [if_pos rfl, if_pos (by omega)]
      congr 1; omega
    · rw [if_neg hk]
      by_cases hk2 : off ≤ k ∧ k < off + n
      · rw [if_pos hk2, if_pos (by omega)]
      · rw [if_neg hk2, if_neg (by omega)]

theorem foldl_congr_mem {α β : Type} (f g : β → α → β) : ∀ (l : List α) (b : β), (∀ b, ∀ a ∈ l, f b a = g b a) →
    l.foldl f b = l.foldl g b := by
  intro l
  induction l with
  | nil => intros; rfl
  | cons a l ih =>
    intro b h
    rw [List.foldl_cons, List.foldl_cons, h b a (by simp), ih _ (fun b x hx => h b x (by simp [hx]))]

theorem join_players (a b : CombinedRange) (k : Nat) : (join a b).players k =
    if k < a.playerCount then a.players k else if k < a.playerCount + b.playerCount then b.players (k - a.playerCount) else 0 := by
  show copyLoop (copyLoop default.players a.players 0 a.playerCount) b.players a.playerCount b.playerCount k = _
  rw [copyLoop_eq, copyLoop_eq]
  by_cases h1 : k < a.playerCount
  · rw [if_neg (by omega), if_pos (by omega), if_pos h1]; rfl
  · rw [if_neg h1]
    by_cases h2 : k < a.playerCount + b.playerCount
    · rw [if_pos (by omega), if_pos h2]
    · rw [if_neg (by omega), if_neg (by omega), if_neg h2]; rfl

theorem joinCombo_hole (n1 n2 : Nat) (c1 c2 : JointCombo) (k : Nat) : (joinCombo n1 n2 c1 c2).holeCards k =
    if k < n1 then c1.holeCards k else if k < n1 + n2 then c2.holeCards (k - n1) else (52, 52, 0) := by
  show copyLoop (copyLoop JointCombo.new.holeCards c1.holeCards 0 n1) c2.holeCards n1 n2 k = _
  rw [copyLoop_eq, copyLoop_eq]
  by_cases h1 : k < n1
  · rw [if_neg (by omega), if_pos (by omega), if_pos h1]; rfl
  · rw [if_neg h1]
    by_cases h2 : k < n1 + n2
    · rw [if_pos (by omega), if_pos h2]
    · rw [if_neg (by omega), if_neg (by omega), if_neg h2]; rfl

theorem range_add_eq (a b : Nat) : List.range (a + b) = List.range a ++ (List.range b).map (a + ·) := List.range_add

theorem playersOf_join (a b : CombinedRange) : playersOf (join a b) = playersOf a ++ playersOf b := by
  show (List.range (a.playerCount + b.playerCount)).map (join a b).players = _
  rw [range_add_eq, List.map_append, List.map_map]
  congr 1
  · apply List.map_congr_left
    intro k hk
    rw [join_players, if_pos (List.mem_range.1 hk)]
  · apply List.map_congr_left
    intro k hk
    have := List.mem_range.1 hk
    rw [Function.comp, join_players, if_neg (by omega), if_pos (by omega)]
    congr 1; omega

theorem writeHands_join (a b : CombinedRange) (c1 c2 : JointCombo) (ph : Nat → Hole) :
    writeHands (join a b) (joinCombo a.playerCount b.playerCount c1 c2) ph = writeHands b c2 (writeHands a c1 ph) := by
  rw [writeHands_eq, writeHands_eq, writeHands_eq]
  show (List.range (a.playerCount + b.playerCount)).foldl _ _ = _
  rw [range_add_eq, List.foldl_append, List.foldl_map]
  rw [foldl_congr_mem _ (fun ph j => Function.update ph (a.players j) (c1.holeCards j)) (List.range a.playerCount) _ (by
    intro p j hj
    have := List.mem_range.1 hj
    rw [join_players, joinCombo_hole, if_pos this, if_pos this])]
  apply foldl_congr_mem
  intro p j hj
  have := List.mem_range.1 hj
  have h1 : ¬ a.playerCount + j < a.playerCount := by omega
  have h2 : a.playerCount + j < a.playerCount + b.playerCount := by omega
  have h3 : a.playerCount + j - a.playerCount = j := by omega
  rw [join_players, joinCombo_hole, if_neg h1, if_neg h1, if_pos h2, if_pos h2, h3]

theorem dealsOf_join (a b : CombinedRange) (rest : List CombinedRange) (u : Nat) (ph : Nat → Hole) :
    dealsOf (join a b :: rest) u ph = dealsOf (a :: b :: rest) u ph := by
  have hb : ∀ (l : List JointCombo) (f : JointCombo → List JointCombo) (g : JointCombo → Multiset (Nat × (Nat → Hole))),
      ((l.flatMap f : List JointCombo) : Multiset JointCombo).bind g = (l : Multiset JointCombo).bind fun c => ((f c : List JointCombo) : Multiset JointCombo).bind g := by
    intro l f g
    rw [← Multiset.coe_bind, Multiset.bind_assoc]
  have hf : ∀ (l : List JointCombo) (f : JointCombo → Option JointCombo) (g : JointCombo → Multiset (Nat × (Nat → Hole))),
      ((l.filterMap f : List JointCombo) : Multiset JointCombo).bind g =
        (l : Multiset JointCombo).bind fun c => (f c).elim 0 g := by
    intro l f g
    induction l with
    | nil => rfl
    | cons x l ih =>
      rw [List.filterMap_cons, ← Multiset.cons_coe x l, Multiset.cons_bind, ← ih]
      cases f x with
      | none => simp
      | some y => simp [← Multiset.cons_coe]
  rw [dealsOf, dealsOf]
  show (((joinCombos a b : List JointCombo) : Multiset JointCombo)).bind _ = _
  rw [joinCombos, hb]
  apply Multiset.bind_congr
  intro c1 _
  rw [hf]
  by_cases h1 : u &&& c1.mask = 0
  · rw [if_neg (not_not.2 h1), dealsOf]
    apply Multiset.bind_congr
    intro c2 _
    by_cases h2 : c1.mask &&& c2.mask = 0
    · rw [if_neg (not_not.2 h2)]
      show (if u &&& (c1.mask ||| c2.mask) ≠ 0 then 0 else dealsOf rest (u ||| (c1.mask ||| c2.mask)) (writeHands (join a b) (joinCombo a.playerCount b.playerCount c1 c2) ph)) = _
      rw [writeHands_join]
      by_cases h3 : u &&& c2.mask = 0
      · rw [if_neg (not_not.2 ((and_or_eq_zero _ _ _).2 ⟨h1, h3⟩)), if_neg (not_not.2 ((or_and_eq_zero _ _ _).2 ⟨h3, h2⟩)),
          Nat.or_assoc]
      · rw [if_pos (fun h => h3 ((and_or_eq_zero _ _ _).1 h).2), if_pos (fun h => h3 ((or_and_eq_zero _ _ _).1 h).1)]
    · rw [if_pos h2, if_pos (fun h => h2 ((or_and_eq_zero _ _ _).1 h).2)]
      rfl
  · rw [if_pos h1]
    refine (Multiset.bind_congr ?_).trans (Multiset.bind_zero (b.combos : Multiset JointCombo))
    intro c2 _
    by_cases h2 : c1.mask &&& c2.mask = 0
    · rw [if_neg (not_not.2 h2)]
      show (if u &&& (c1.mask ||| c2.mask) ≠ 0 then 0 else _) = _
      rw [if_pos (fun h => h1 ((and_or_eq_zero _ _ _).1 h).1)]
    · rw [if_pos h2]; rfl

/-! ### The combining loop -/

theorem joinAt_split (l1 l2 l3 : List CombinedRange) (a b : CombinedRange) :
    joinAt (l1 ++ a :: l2 ++ b :: l3) (l1.length + 1 + l2.length) l1.length = l1 ++ join a b :: l2 ++ l3 := by
  have h1 : (l1 ++ a :: l2 ++ b :: l3).getD l1.length default = a := by simp
  have h2 : (l1 ++ a :: l2 ++ b :: l3).getD (l1.length + 1 + l2.length) default = b := by
    have : (l1 ++ a :: l2).length = l1.length + 1 + l2.length := by simp; omega
    rw [List.getD_eq_getElem?_getD, List.getElem?_append_right (by omega), this]; simp
  rw [joinAt, h1, h2]
  have h3 : (l1 ++ a :: l2 ++ b :: l3).set l1.length (join a b) = l1 ++ join a b :: l2 ++ b :: l3 := by
    rw [List.append_assoc, List.set_append_right _ _ (Nat.le_refl _)]; simp
  rw [h3, List.eraseIdx_append_of_length_le (by simp; omega)]
  congr 1
  have : l1.length + 1 + l2.length - (l1 ++ join a b :: l2).length = 0 := by simp; omega
  rw [this]; rfl

theorem split_at {α : Type} (l : List α) (i : Nat) (h : i < l.length) : ∃ l1 x l2, l = l1 ++ x :: l2 ∧ l1.length = i :=
  ⟨l.take i, l[i], l.drop (i + 1), by rw [List.getElem_cons_drop, List.take_append_drop], by simp; omega⟩

/-- Joining two different entries of the list of combined ranges. -/
theorem joinAt_perm (crs : List CombinedRange) (i j : Nat) (hj : j < i) (hi : i < crs.length) :
    ∃ a b rest, crs.Perm (a :: b :: rest) ∧ (joinAt crs i j).Perm (join a b :: rest) ∧
      a ∈ crs ∧ b ∈ crs := by
  obtain ⟨m, b, l3, he, hm⟩ := split_at crs i hi
  obtain ⟨l1, a, l2, he2, hl⟩ := split_at m j (by omega)
  subst he2
  subst he
  have hi' : i = l1.length + 1 + l2.length := by simp at hm; omega
  subst hi'
  subst hl
  refine ⟨a, b, l1 ++ l2 ++ l3, ?_, ?_, by simp, by simp⟩
  · have h1 : (l1 ++ a :: l2 ++ b :: l3).Perm (b :: (l1 ++ a :: l2 ++ l3)) := List.perm_middle
    refine h1.trans ?_
    have h2 : (l1 ++ a :: l2 ++ l3).Perm (a :: (l1 ++ l2 ++ l3)) := by
      rw [List.append_assoc, List.cons_append, List.append_assoc]
      exact List.perm_middle
    exact (List.Perm.cons b h2).trans (List.Perm.swap _ _ _)
  · rw [joinAt_split]
    rw [List.append_assoc, List.cons_append, List.append_assoc]
    exact List.perm_middle

/-- The pair found by the search is a pair of different entries, if its size is not the initial value. -/
theorem bestPair_spec (crs : List CombinedRange) (h : (bestPair crs).1 < 2 ^ 64 - 1) :
    (bestPair crs).2.2 < (bestPair crs).2.1 ∧ (bestPair crs).2.1 < crs.length ∧
    (bestPair crs).1 = estimateJoinSize (crs.getD (bestPair crs).2.1 default) (crs.getD (bestPair crs).2.2 default) := by
  let P : Nat × Nat × Nat → Prop := fun st => st.1 < 2 ^ 64 - 1 → st.2.2 < st.2.1 ∧ st.2.1 < crs.length ∧
    st.1 = estimateJoinSize (crs.getD st.2.1 default) (crs.getD st.2.2 default)
  have inner : ∀ i < crs.length, ∀ (l : List Nat), (∀ j ∈ l, j < i) → ∀ st, P st → P (l.foldl (fun st j =>
      let s := estimateJoinSize (crs.getD i default) (crs.getD j default)
      if s < st.1 then (s, i, j) else st) st) := by
    intro i hi l
    induction l with
    | nil => intro _ st h; exact h
    | cons j l ih =>
      intro hl st hst
      rw [List.foldl_cons]
      apply ih (fun k hk => hl k (by simp [hk]))
      show P (if _ < st.1 then _ else st)
      split
      · intro _
        exact ⟨hl j (by simp), hi, rfl⟩
      · exact hst
  have outer : ∀ (l : List Nat), (∀ i ∈ l, i < crs.length) → ∀ st, P st → P (l.foldl (fun st i => (List.range i).foldl (fun st j =>
      let s := estimateJoinSize (crs.getD i default) (crs.getD j default)
      if s < st.1 then (s, i, j) else st) st) st) := by
    intro l
    induction l with
    | nil => intro _ st h; exact h
    | cons i l ih =>
      intro hl st hst
      rw [List.foldl_cons]
      apply ih (fun k hk => hl k (by simp [hk]))
      exact inner i (hl i (by simp)) _ (fun j hj => List.mem_range.1 hj) st hst
  exact outer (List.range crs.length) (fun i hi => List.mem_range.1 hi) (2 ^ 64 - 1, 0, 0) (fun h => absurd h (by decide)) h

/-- An induction principle for the combining loop: a property that survives reordering and joining two entries holds
for the result. -/
theorem combineLoop_ind (P : List CombinedRange → Prop) (hperm : ∀ xs ys, xs.Perm ys → P xs → P ys)
    (hjoin : ∀ a b rest, P (a :: b :: rest) → P (join a b :: rest)) :
    ∀ fuel crs, P crs → P (combineLoop fuel crs) := by
  intro fuel
  induction fuel with
  | zero => intro crs h; exact h
  | succ fuel ih =>
    intro crs h
    rw [combineLoop]
    show P (if (bestPair crs).1 < MAX_SIZE then _ else _)
    split
    · rename_i hb
      apply ih
      have hs := bestPair_spec crs (Nat.lt_trans hb (by decide))
      obtain ⟨a, b, rest, h1, h2, _, _⟩ := joinAt_perm crs _ _ hs.1 hs.2.1
      exact hperm _ _ h2.symm (hjoin a b rest (hperm _ _ h1 h))
    · exact h

/-- The loop has ended when the bound on the iterations is reached. -/
theorem combineLoop_fuel : ∀ fuel crs, crs.length ≤ fuel → ∀ k, combineLoop (fuel + k) crs = combineLoop fuel crs := by
  intro fuel
  induction fuel with
  | zero =>
    intro crs hc k
    have : crs = [] := List.length_eq_zero_iff.1 (by omega)
    subst this
    cases k with
    | zero => rfl
    | succ k =>
      show combineLoop (0 + k + 1) [] = []
      rw [combineLoop, if_neg (by decide)]
  | succ fuel ih =>
    intro crs hc k
    have e : fuel + 1 + k = fuel + k + 1 := by omega
    rw [e, combineLoop, combineLoop]
    show (if (bestPair crs).1 < MAX_SIZE then _ else _) = if (bestPair crs).1 < MAX_SIZE then _ else _
    split
    · rename_i hb
      apply ih
      have hs := bestPair_spec crs (Nat.lt_trans hb (by decide))
      obtain ⟨a, b, rest, h1, h2, _, _⟩ := joinAt_perm crs _ _ hs.1 hs.2.1
      have := h1.length_eq
      rw [h2.length_eq]
      simp at this ⊢
      omega
    · rfl

theorem disjoint_of_nodup (crs : List CombinedRange) (h : (crs.flatMap playersOf).Nodup) :
    crs.Pairwise fun a b => (playersOf a).Disjoint (playersOf b) :=
  (List.nodup_flatMap.1 h).2

/-- C27, core: the combined ranges have the deals of the single ranges, and every player occurs in one combined range. -/
theorem combineLoop_deals (fuel : Nat) (crs : List CombinedRange) (n : Nat)
    (hp : (crs.flatMap playersOf).Perm (List.range n)) :
    ((combineLoop fuel crs).flatMap playersOf).Perm (List.range n) ∧
    ∀ u ph, dealsOf (combineLoop fuel crs) u ph = dealsOf crs u ph := by
  apply combineLoop_ind (fun ys => (ys.flatMap playersOf).Perm (List.range n) ∧ ∀ u ph, dealsOf ys u ph = dealsOf crs u ph)
  · intro xs ys h ⟨h1, h2⟩
    refine ⟨(List.Perm.flatMap_right _ h.symm).trans h1, fun u ph => ?_⟩
    rw [← h2, dealsOf_perm h (disjoint_of_nodup xs (h1.nodup_iff.2 List.nodup_range))]
  · intro a b rest ⟨h1, h2⟩
    refine ⟨?_, fun u ph => by rw [dealsOf_join, h2]⟩
    rw [List.flatMap_cons, playersOf_join, List.append_assoc]
    rw [List.flatMap_cons, List.flatMap_cons] at h1
    exact h1
  · exact ⟨hp, fun _ _ => rfl⟩

end Pokers
