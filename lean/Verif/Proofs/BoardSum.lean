import Mathlib.Data.List.Sublists
import Mathlib.Data.Nat.Choose.Basic
import Mathlib.Algebra.BigOperators.Group.List.Basic
import Mathlib.Algebra.BigOperators.Intervals
import Mathlib.Tactic.Abel
import Verif.Proofs.HandAlgebra
import Verif.Spec.Poker
/-!
# Sums over all completions of a board

`S g bs L r` is the sum of `g (bs ++ T)` over all choices `T` of `r` cards of `L`.
-/
namespace Pokers
open Spec

variable {M : Type} [AddCommMonoid M]

def S (g : List Nat → M) (bs L : List Nat) (r : Nat) : M := ((L.sublistsLen r).map fun T => g (bs ++ T)).sum

theorem S_zero (g : List Nat → M) (bs L : List Nat) : S g bs L 0 = g bs := by simp [S]

theorem S_nil (g : List Nat → M) (bs : List Nat) (r : Nat) : S g bs [] (r + 1) = 0 := by simp [S]

theorem S_cons (g : List Nat → M) (bs L : List Nat) (a r : Nat) :
    S g bs (a :: L) (r + 1) = S g bs L (r + 1) + S g (bs ++ [a]) L r := by
  simp only [S, List.sublistsLen_succ_cons, List.map_append, List.sum_append, List.map_map]
  congr 2
  apply List.map_congr_left
  intro T _
  simp

/-- `g` does not depend on the order of the cards. -/
def PermInv (g : List Nat → M) : Prop := ∀ xs ys : List Nat, xs.Perm ys → g xs = g ys

theorem S_bs_perm {g : List Nat → M} (hg : PermInv g) {bs bs' : List Nat} (h : bs.Perm bs') (L : List Nat) (r : Nat) :
    S g bs L r = S g bs' L r := by
  unfold S
  congr 1
  exact List.map_congr_left fun T _ => hg _ _ (h.append_right T)

theorem S_perm {g : List Nat → M} (hg : PermInv g) {L L' : List Nat} (h : L.Perm L') :
    ∀ (bs : List Nat) (r : Nat), S g bs L r = S g bs L' r := by
  induction h with
  | nil => intro bs r; rfl
  | cons a _ ih =>
    intro bs r
    cases r with
    | zero => rw [S_zero, S_zero]
    | succ r => rw [S_cons, S_cons, ih, ih]
  | swap a b l =>
    intro bs r
    match r with
    | 0 => rw [S_zero, S_zero]
    | 1 => simp only [S_cons, S_zero]; abel
    | r + 2 =>
      simp only [S_cons]
      rw [S_bs_perm hg (bs := bs ++ [b] ++ [a]) (bs' := bs ++ [a] ++ [b])
        (by simpa using List.Perm.append_left bs (List.Perm.swap a b []))]
      abel
  | trans _ _ ih1 ih2 => intro bs r; rw [ih1, ih2]

theorem S_one (g : List Nat → M) (bs : List Nat) : ∀ L : List Nat, S g bs L 1 = (L.map fun c => g (bs ++ [c])).sum
  | [] => by rw [S_nil]; rfl
  | a :: L => by rw [S_cons, S_zero, S_one g bs L, List.map_cons, List.sum_cons, add_comm]

/-- Sum over the number of cards taken from the first part of the deck. -/
theorem S_append (g : List Nat → M) (L : List Nat) : ∀ (G bs : List Nat) (r : Nat),
    S g bs (G ++ L) r =
      ∑ k ∈ Finset.range (r + 1), ((G.sublistsLen k).map fun T => S g (bs ++ T) L (r - k)).sum := by
  intro G
  induction G with
  | nil =>
    intro bs r
    rw [Finset.sum_range_succ', Finset.sum_eq_zero]
    · simp
    · intro k _; simp
  | cons a G ih =>
    intro bs r
    cases r with
    | zero => simp [S_zero]
    | succ r =>
      rw [List.cons_append, S_cons, ih, ih, Finset.sum_range_succ' _ (r + 1), Finset.sum_range_succ' _ (r + 1)]
      have : ∀ k ∈ Finset.range (r + 1),
          (((a :: G).sublistsLen (k + 1)).map fun T => S g (bs ++ T) L (r + 1 - (k + 1))).sum =
          ((G.sublistsLen (k + 1)).map fun T => S g (bs ++ T) L (r + 1 - (k + 1))).sum +
          ((G.sublistsLen k).map fun T => S g (bs ++ [a] ++ T) L (r - k)).sum := by
        intro k _
        rw [List.sublistsLen_succ_cons, List.map_append, List.sum_append, List.map_map]
        congr 2
        apply List.map_congr_left
        intro T _
        simp
      rw [Finset.sum_congr rfl this, Finset.sum_add_distrib]
      simp only [List.sublistsLen_zero]
      abel

theorem sum_const_map {α : Type} (l : List α) (f : α → M) (c : M) (h : ∀ x ∈ l, f x = c) :
    (l.map f).sum = l.length • c := by
  induction l with
  | nil => simp
  | cons x l ih =>
    rw [List.map_cons, List.sum_cons, h x (by simp), ih (fun y hy => h y (by simp [hy])), List.length_cons, succ_nsmul,
      add_comm]

/-- When the cards of `G` are interchangeable, only their number matters. -/
theorem S_group (g : List Nat → M) (L G bs : List Nat) (r : Nat)
    (h : ∀ k ≤ r, ∀ T : List Nat, T.Sublist G → T.length = k → S g (bs ++ T) L (r - k) = S g (bs ++ G.take k) L (r - k)) :
    S g bs (G ++ L) r =
      S g bs L r + ∑ j ∈ Finset.range (min G.length r),
        (G.length.choose (j + 1)) • S g (bs ++ G.take (j + 1)) L (r - (j + 1)) := by
  rw [S_append, Finset.sum_range_succ']
  have h0 : ((G.sublistsLen 0).map fun T => S g (bs ++ T) L (r - 0)).sum = S g bs L r := by simp
  rw [h0, add_comm]
  congr 1
  have h1 : ∀ j ∈ Finset.range r, ((G.sublistsLen (j + 1)).map fun T => S g (bs ++ T) L (r - (j + 1))).sum =
      (G.length.choose (j + 1)) • S g (bs ++ G.take (j + 1)) L (r - (j + 1)) := by
    intro j hj
    rw [sum_const_map _ _ (S g (bs ++ G.take (j + 1)) L (r - (j + 1))), List.length_sublistsLen]
    intro T hT
    rw [List.mem_sublistsLen] at hT
    exact h (j + 1) (by rw [Finset.mem_range] at hj; omega) T hT.1 hT.2
  rw [Finset.sum_congr rfl h1]
  symm
  apply Finset.sum_subset
  · intro x hx; rw [Finset.mem_range] at *; omega
  · intro x hx hn
    rw [Finset.mem_range] at *
    rw [Nat.choose_eq_zero_of_lt (by omega), zero_nsmul]

/-! ## Interchangeable cards -/

/-- The rank of a card. -/
abbrev rk (c : Nat) : Nat := c / 4

/-- No player can complete a flush of suit `s`: `hs s` is the largest number of hole cards of suit `s` in one hand, and more
than `hs s` of the five board cards are already known to have another suit. -/
def Dead (hs : Nat → Nat) (bs : List Nat) (s : Nat) : Prop := hs s + suitCnt bs s < bs.length

/-- The function `F board flush_possible` is a possible effect of `evaluate_hands`. -/
structure BoardFun (hs : Nat → Nat) (avail : Nat → Prop) (F : Hand → Bool → M) : Prop where
  swap : ∀ a b ys, IsCards (a :: ys) → IsCards (b :: ys) → (∀ c ∈ a :: ys, avail c) → (∀ c ∈ b :: ys, avail c) →
    ys.length = 4 → rk a = rk b → Dead hs (a :: ys) (a % 4) → Dead hs (b :: ys) (b % 4) →
    F (ofCards (a :: ys)) true = F (ofCards (b :: ys)) true
  noflush : ∀ xs, IsCards xs → (∀ c ∈ xs, avail c) → xs.length = 5 → (∀ s < 4, Dead hs xs s) →
    F (ofCards xs) false = F (ofCards xs) true

theorem suitCnt_append (xs ys : List Nat) (s : Nat) : suitCnt (xs ++ ys) s = suitCnt xs s + suitCnt ys s := by
  unfold suitCnt; rw [List.countP_append]

theorem suitCnt_perm {xs ys : List Nat} (h : xs.Perm ys) (s : Nat) : suitCnt xs s = suitCnt ys s := h.countP_eq _

theorem Dead.append {hs : Nat → Nat} {bs : List Nat} {s : Nat} (h : Dead hs bs s) (T : List Nat) : Dead hs (bs ++ T) s := by
  unfold Dead at *
  rw [suitCnt_append, List.length_append]
  have := suitCnt_le_length T s
  omega

theorem Dead.perm {hs : Nat → Nat} {bs bs' : List Nat} {s : Nat} (h : Dead hs bs s) (hp : bs.Perm bs') : Dead hs bs' s := by
  unfold Dead at *
  rw [← suitCnt_perm hp, ← hp.length_eq]; exact h

theorem IsCards.perm {xs ys : List Nat} (h : IsCards xs) (hp : xs.Perm ys) : IsCards ys :=
  ⟨hp.nodup_iff.1 h.1, fun c hc => h.2 c (hp.mem_iff.2 hc)⟩

variable {hs : Nat → Nat} {avail : Nat → Prop} {F : Hand → Bool → M}

/-- The function summed over the boards. -/
abbrev gOf (F : Hand → Bool → M) (xs : List Nat) : M := F (ofCards xs) true

omit [AddCommMonoid M] in
theorem gOf_perm (F : Hand → Bool → M) : PermInv (gOf F) := fun xs ys h => by
  unfold gOf; rw [ofCards_perm h]

omit [AddCommMonoid M] in
theorem swap_group (hF : BoardFun hs avail F) (rank : Nat) : ∀ (n : Nat) (T1 T2 bs : List Nat), T1.length = n → T2.length = n →
    (∀ c ∈ T1, rk c = rank ∧ Dead hs bs (c % 4)) → (∀ c ∈ T2, rk c = rank ∧ Dead hs bs (c % 4)) →
    IsCards (bs ++ T1) → IsCards (bs ++ T2) → (∀ c ∈ bs ++ T1, avail c) → (∀ c ∈ bs ++ T2, avail c) →
    (bs ++ T1).length = 5 → gOf F (bs ++ T1) = gOf F (bs ++ T2) := by
  intro n
  induction n with
  | zero =>
    intro T1 T2 bs h1 h2 _ _ _ _ _ _ _
    rw [List.length_eq_zero_iff.1 h1, List.length_eq_zero_iff.1 h2]
  | succ n ih =>
    -- a common card can be moved to the board
    have step : ∀ (a : Nat) (T1 T2 bs : List Nat), T1.length = n → T2.length = n →
        (∀ c ∈ a :: T1, rk c = rank ∧ Dead hs bs (c % 4)) → (∀ c ∈ a :: T2, rk c = rank ∧ Dead hs bs (c % 4)) →
        IsCards (bs ++ a :: T1) → IsCards (bs ++ a :: T2) → (∀ c ∈ bs ++ a :: T1, avail c) →
        (∀ c ∈ bs ++ a :: T2, avail c) →
        (bs ++ a :: T1).length = 5 → gOf F (bs ++ a :: T1) = gOf F (bs ++ a :: T2) := by
      intro a T1 T2 bs h1 h2 d1 d2 c1 c2 a1 a2 hl
      have := ih T1 T2 (bs ++ [a]) h1 h2 (fun c hc => ⟨(d1 c (by simp [hc])).1, (d1 c (by simp [hc])).2.append _⟩)
        (fun c hc => ⟨(d2 c (by simp [hc])).1, (d2 c (by simp [hc])).2.append _⟩) (by simpa using c1) (by simpa using c2)
        (by simpa using a1) (by simpa using a2) (by simpa using hl)
      simpa using this
    intro T1 T2 bs h1 h2 d1 d2 c1 c2 a1 a2 hl
    obtain ⟨a, T1, rfl⟩ := List.exists_cons_of_length_eq_add_one h1
    obtain ⟨b, T2, rfl⟩ := List.exists_cons_of_length_eq_add_one h2
    simp only [List.length_cons, Nat.add_right_cancel_iff] at h1 h2
    by_cases hb : b ∈ T1
    · -- `b` is common
      have hp : (a :: T1).Perm (b :: a :: T1.erase b) :=
        ((List.perm_cons_erase hb).cons a).trans (List.Perm.swap b a _)
      have hp' := hp.append_left bs
      rw [gOf_perm F _ _ hp']
      have hl1 : (a :: T1.erase b).length = n := by
        have := hp.length_eq
        simp only [List.length_cons] at this ⊢
        omega
      exact step b _ T2 bs hl1 h2 (fun c hc => d1 c (hp.mem_iff.2 hc)) d2 (IsCards.perm c1 hp') c2
        (fun c hc => a1 c (hp'.mem_iff.2 hc)) a2 (by rw [← hp'.length_eq]; exact hl)
    · by_cases hab : a = b
      · subst hab
        exact step a T1 T2 bs h1 h2 d1 d2 c1 c2 a1 a2 hl
      · -- replace `a` by `b`
        have hmid : IsCards (bs ++ b :: T1) := by
          have n1 := c1.1
          have n2 := c2.1
          rw [List.nodup_append] at n1 n2
          refine ⟨?_, ?_⟩
          · rw [List.nodup_append]
            refine ⟨n1.1, List.nodup_cons.2 ⟨hb, (List.nodup_cons.1 n1.2.1).2⟩, ?_⟩
            intro x hx y hy
            rcases List.mem_cons.1 hy with rfl | hy
            · exact n2.2.2 x hx y (by simp)
            · exact n1.2.2 x hx y (by simp [hy])
          · intro c hc
            rw [List.mem_append, List.mem_cons] at hc
            rcases hc with hc | rfl | hc
            · exact c1.2 c (by simp [hc])
            · exact c2.2 c (by simp)
            · exact c1.2 c (by simp [hc])
        have amid : ∀ c ∈ bs ++ b :: T1, avail c := by
          intro c hc
          rw [List.mem_append, List.mem_cons] at hc
          rcases hc with hc | rfl | hc
          · exact a1 c (by simp [hc])
          · exact a2 c (by simp)
          · exact a1 c (by simp [hc])
        have pa : ∀ x, (bs ++ x :: T1).Perm (x :: (bs ++ T1)) := fun x => List.perm_middle
        have e1 : gOf F (bs ++ a :: T1) = gOf F (bs ++ b :: T1) := by
          rw [gOf_perm F _ _ (pa a), gOf_perm F _ _ (pa b)]
          refine hF.swap a b (bs ++ T1) (IsCards.perm c1 (pa a)) (IsCards.perm hmid (pa b))
            (fun c hc => a1 c ((pa a).mem_iff.2 hc)) (fun c hc => amid c ((pa b).mem_iff.2 hc)) ?_ ?_ ?_ ?_
          · simp at hl ⊢; omega
          · rw [(d1 a (by simp)).1, (d2 b (by simp)).1]
          · exact ((d1 a (by simp)).2.append (a :: T1)).perm (pa a)
          · exact ((d2 b (by simp)).2.append (b :: T1)).perm (pa b)
        rw [e1]
        refine step b T1 T2 bs h1 h2 ?_ d2 hmid c2 amid a2 (by simpa using hl)
        intro c hc
        rcases List.mem_cons.1 hc with rfl | hc
        · exact d2 c (by simp)
        · exact d1 c (by simp [hc])

/-- A group of dead cards of the same rank: only the number of cards used matters. -/
theorem S_dead_group (hF : BoardFun hs avail F) {bs G L : List Nat} {r rank : Nat} (hl : bs.length + r = 5)
    (hd : ∀ c ∈ G, rk c = rank ∧ Dead hs bs (c % 4)) (hc : IsCards (bs ++ (G ++ L))) (ha : ∀ c ∈ bs ++ (G ++ L), avail c) :
    S (gOf F) bs (G ++ L) r =
      S (gOf F) bs L r + ∑ j ∈ Finset.range (min G.length r),
        (G.length.choose (j + 1)) • S (gOf F) (bs ++ G.take (j + 1)) L (r - (j + 1)) := by
  apply S_group
  intro k hk T hT hTk
  unfold S
  congr 1
  apply List.map_congr_left
  intro U hU
  rw [List.mem_sublistsLen] at hU
  have hTl := hT.length_le
  have key : ∀ X : List Nat, X.Sublist G → X.length = k → (bs ++ U ++ X).Perm (bs ++ X ++ U) ∧ IsCards (bs ++ U ++ X) ∧
      ∀ c ∈ bs ++ U ++ X, avail c := by
    intro X hX _
    have hp : (bs ++ U ++ X).Perm (bs ++ X ++ U) := by
      rw [List.append_assoc, List.append_assoc]
      exact List.perm_append_comm.append_left bs
    have hs : (bs ++ X ++ U).Sublist (bs ++ (G ++ L)) := by
      rw [List.append_assoc]
      exact List.Sublist.append_left (hX.append hU.1) bs
    refine ⟨hp, IsCards.perm ⟨hc.1.sublist hs, fun c h => hc.2 c (hs.subset h)⟩ hp.symm, fun c h => ha c (hs.subset (hp.mem_iff.1 h))⟩
  have k1 := key T hT hTk
  have htk : (G.take k).length = k := by rw [List.length_take]; omega
  have k2 := key (G.take k) (List.take_sublist k G) htk
  rw [← gOf_perm F _ _ k1.1, ← gOf_perm F _ _ k2.1]
  exact swap_group hF rank k T (G.take k) (bs ++ U) hTk htk
    (fun c h => ⟨(hd c (hT.subset h)).1, (hd c (hT.subset h)).2.append U⟩)
    (fun c h => ⟨(hd c (List.mem_of_mem_take h)).1, (hd c (List.mem_of_mem_take h)).2.append U⟩)
    k1.2.1 k2.2.1 k1.2.2 k2.2.2 (by simp only [List.length_append]; omega)

end Pokers
