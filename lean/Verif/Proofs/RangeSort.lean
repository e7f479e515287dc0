import Verif.Model.HandRange
import Mathlib.Data.List.Nodup
import Mathlib.Data.Nat.Bitwise
import Mathlib.Tactic.SplitIfs
import Mathlib.Tactic.Ring
import Mathlib.Data.List.Pairwise
/-! Ordering of combos, sorting and removing duplicates. -/
namespace Pokers

/-- The order of `Combo` spelled out. -/
def Combo.Lt (a b : Combo) : Prop :=
  a.c1 / 4 < b.c1 / 4 ∨ (a.c1 / 4 = b.c1 / 4 ∧ (a.c2 / 4 < b.c2 / 4 ∨ (a.c2 / 4 = b.c2 / 4 ∧
    (a.c1 % 4 < b.c1 % 4 ∨ (a.c1 % 4 = b.c1 % 4 ∧ a.c2 % 4 < b.c2 % 4)))))

theorem and_three (n : Nat) : n &&& 3 = n % 4 := Nat.and_two_pow_sub_one_eq_mod n 2

theorem shr_two (n : Nat) : n >>> 2 = n / 4 := Nat.shiftRight_eq_div_pow n 2

theorem cmp_lt_iff (a b : Combo) : a.cmp b = .lt ↔ a.Lt b := by
  unfold Combo.cmp Combo.Lt
  simp only [and_three, shr_two]
  split_ifs <;> rw [Nat.compare_eq_lt] <;> omega

theorem cmp_gt_iff (a b : Combo) : a.cmp b = .gt ↔ b.Lt a := by
  unfold Combo.cmp Combo.Lt
  simp only [and_three, shr_two]
  split_ifs <;> rw [Nat.compare_eq_gt] <;> omega

theorem cmp_eq_iff (a b : Combo) : a.cmp b = .eq ↔ a.c1 = b.c1 ∧ a.c2 = b.c2 := by
  unfold Combo.cmp
  simp only [and_three, shr_two]
  split_ifs <;> rw [Nat.compare_eq_eq] <;> omega

theorem Combo.eq_iff {a b : Combo} (h1 : a.c1 < 256) (h2 : a.c2 < 256) (h3 : b.c1 < 256) (h4 : b.c2 < 256) :
    a.eq b = true ↔ a.c1 = b.c1 ∧ a.c2 = b.c2 := by
  have key : ∀ x y : Nat, x < 256 → y < 256 → (x <<< 8) % 2 ^ 16 ||| y = x * 256 + y := by
    intro x y hx hy
    rw [Nat.shiftLeft_eq, Nat.mod_eq_of_lt (by omega), Nat.mul_comm x, ← Nat.two_pow_add_eq_or_of_lt (by simpa using hy)]
  unfold Combo.eq
  rw [key _ _ h1 h2, key _ _ h3 h4, beq_iff_eq]
  omega

/-- The comparison used for sorting. -/
def Combo.le (a b : Combo) : Bool := a.cmp b != .gt

theorem Combo.le_iff (a b : Combo) : a.le b = true ↔ ¬ b.Lt a := by
  unfold Combo.le
  rw [bne_iff_ne, ne_eq, cmp_gt_iff]

theorem Combo.le_trans (a b c : Combo) : a.le b = true → b.le c = true → a.le c = true := by
  rw [le_iff, le_iff, le_iff]
  unfold Combo.Lt
  omega

theorem Combo.le_total (a b : Combo) : (a.le b || b.le a) = true := by
  rw [Bool.or_eq_true, le_iff, le_iff]
  unfold Combo.Lt
  omega

theorem sort_pairwise (l : List Combo) : (l.mergeSort Combo.le).Pairwise (fun a b => ¬ b.Lt a) := by
  have := List.pairwise_mergeSort (le := Combo.le) Combo.le_trans Combo.le_total l
  exact this.imp (fun {a b} h => (Combo.le_iff a b).1 h)

/-- Same cards. -/
def Combo.same (p q : Nat) (a : Combo) : Bool := a.c1 == p && a.c2 == q

theorem Combo.same_iff (p q : Nat) (a : Combo) : a.same p q = true ↔ a.c1 = p ∧ a.c2 = q := by
  unfold Combo.same
  rw [Bool.and_eq_true, beq_iff_eq, beq_iff_eq]

/-- Sorting keeps the order of combos with the same cards. -/
theorem sort_filter (l : List Combo) (p q : Nat) :
    (l.mergeSort Combo.le).filter (Combo.same p q) = l.filter (Combo.same p q) := by
  have hs : (l.filter (Combo.same p q)).Sublist (l.mergeSort Combo.le) := by
    apply List.sublist_mergeSort Combo.le_trans Combo.le_total
    · rw [List.pairwise_iff_forall_sublist]
      intro a b hab
      have ha : a ∈ l.filter (Combo.same p q) := hab.subset (by simp)
      have hb : b ∈ l.filter (Combo.same p q) := hab.subset (by simp)
      rw [List.mem_filter, Combo.same_iff] at ha hb
      rw [Combo.le_iff]
      unfold Combo.Lt
      omega
    · exact List.filter_sublist
  have h2 : (l.filter (Combo.same p q)).Sublist ((l.mergeSort Combo.le).filter (Combo.same p q)) := by
    have := hs.filter (Combo.same p q)
    simpa only [List.filter_filter, Bool.and_self] using this
  symm
  apply h2.eq_of_length
  exact ((List.mergeSort_perm l Combo.le).filter _).length_eq.symm

theorem mem_dedupFrom {x last : Combo} {l : List Combo} (h : x ∈ dedupFrom last l) : x ∈ l := by
  induction l generalizing last with
  | nil => exact h
  | cons y l ih =>
    rw [dedupFrom] at h
    split at h
    · exact List.mem_cons_of_mem _ (ih h)
    · rcases List.mem_cons.1 h with rfl | h
      · exact List.mem_cons_self
      · exact List.mem_cons_of_mem _ (ih h)

/-- All combos are pairs of bytes. -/
def Bytes (l : List Combo) : Prop := ∀ c ∈ l, c.c1 < 256 ∧ c.c2 < 256

theorem dedupFrom_pairwise {last : Combo} {l : List Combo} (hb : Bytes (last :: l))
    (hs : (last :: l).Pairwise (fun a b => ¬ b.Lt a)) :
    (last :: dedupFrom last l).Pairwise Combo.Lt := by
  induction l generalizing last with
  | nil => simp [dedupFrom]
  | cons y l ih =>
    have hy := hb y (by simp)
    have hl := hb last (by simp)
    rw [dedupFrom]
    rw [List.pairwise_cons] at hs
    have hs' := List.pairwise_cons.1 hs.2
    split
    · apply ih
      · intro c hc
        exact hb c (by simp at hc ⊢; tauto)
      · rw [List.pairwise_cons]
        exact ⟨fun z hz => hs.1 z (List.mem_cons_of_mem _ hz), hs'.2⟩
    · rename_i hne
      have h2 := ih (last := y) (fun c hc => hb c (by simp at hc ⊢; tauto)) hs.2
      have hlt : last.Lt y := by
        have h1 := hs.1 y (by simp)
        rw [Combo.eq_iff hy.1 hy.2 hl.1 hl.2] at hne
        unfold Combo.Lt at *
        omega
      rw [List.pairwise_cons]
      refine ⟨?_, h2⟩
      intro z hz
      rcases List.mem_cons.1 hz with rfl | hz
      · exact hlt
      · have := (List.pairwise_cons.1 h2).1 z hz
        unfold Combo.Lt at *
        omega

theorem dedup_pairwise {l : List Combo} (hb : Bytes l) (hs : l.Pairwise (fun a b => ¬ b.Lt a)) :
    (dedup l).Pairwise Combo.Lt := by
  cases l with
  | nil => simp [dedup]
  | cons x l => exact dedupFrom_pairwise hb hs

theorem dedupFrom_find {last : Combo} {l : List Combo} (hb : Bytes (last :: l)) (p q : Nat) :
    (last :: dedupFrom last l).find? (Combo.same p q) = (last :: l).find? (Combo.same p q) := by
  induction l generalizing last with
  | nil => simp [dedupFrom]
  | cons y l ih =>
    have hy := hb y (by simp)
    have hl := hb last (by simp)
    rw [dedupFrom]
    split
    · rename_i he
      rw [ih (fun c hc => hb c (by simp at hc ⊢; tauto))]
      rw [Combo.eq_iff hy.1 hy.2 hl.1 hl.2] at he
      have hse : y.same p q = last.same p q := by unfold Combo.same; rw [he.1, he.2]
      rw [List.find?_cons, List.find?_cons, List.find?_cons, hse]
      cases last.same p q <;> rfl
    · have h2 := ih (last := y) (fun c hc => hb c (by simp at hc ⊢; tauto))
      rw [List.find?_cons, h2, List.find?_cons (a := last)]

theorem dedup_find {l : List Combo} (hb : Bytes l) (p q : Nat) :
    (dedup l).find? (Combo.same p q) = l.find? (Combo.same p q) := by
  cases l with
  | nil => rfl
  | cons x l => exact dedupFrom_find hb p q

theorem find_filter (l : List Combo) (p q : Nat) : (l.filter (Combo.same p q)).head? = l.find? (Combo.same p q) := by
  simp [List.head?_filter]

theorem removeDuplicates_eq (l : List Combo) : removeDuplicates l = dedup (l.mergeSort Combo.le) := rfl

theorem bytes_sort {l : List Combo} (hb : Bytes l) : Bytes (l.mergeSort Combo.le) :=
  fun c hc => hb c ((List.mergeSort_perm l Combo.le).mem_iff.1 hc)

theorem removeDuplicates_pairwise {l : List Combo} (hb : Bytes l) : (removeDuplicates l).Pairwise Combo.Lt :=
  dedup_pairwise (bytes_sort hb) (sort_pairwise l)

theorem removeDuplicates_find {l : List Combo} (hb : Bytes l) (p q : Nat) :
    (removeDuplicates l).find? (Combo.same p q) = l.find? (Combo.same p q) := by
  rw [removeDuplicates_eq, dedup_find (bytes_sort hb), ← find_filter, sort_filter, find_filter]

theorem mem_removeDuplicates_of {l : List Combo} {c : Combo} (h : c ∈ removeDuplicates l) : c ∈ l := by
  rw [removeDuplicates_eq] at h
  have : c ∈ l.mergeSort Combo.le := by
    cases hm : l.mergeSort Combo.le with
    | nil => rw [hm] at h; exact h
    | cons x xs =>
      rw [hm, dedup] at h
      rcases List.mem_cons.1 h with rfl | h
      · simp
      · exact List.mem_cons_of_mem _ (mem_dedupFrom h)
  exact (List.mergeSort_perm l Combo.le).mem_iff.1 this

/-- After removing duplicates a combo is present exactly if it is the first one with its cards. -/
theorem mem_removeDuplicates_iff {l : List Combo} (hb : Bytes l) (c : Combo) :
    c ∈ removeDuplicates l ↔ l.find? (Combo.same c.c1 c.c2) = some c := by
  rw [← removeDuplicates_find hb]
  constructor
  · intro h
    have hp := removeDuplicates_pairwise hb
    cases hf : (removeDuplicates l).find? (Combo.same c.c1 c.c2) with
    | none =>
      have := List.find?_eq_none.1 hf c h
      exact absurd ((Combo.same_iff _ _ c).2 ⟨rfl, rfl⟩) this
    | some d =>
      have h1 := List.find?_some hf
      rw [Combo.same_iff] at h1
      have h2 := List.mem_of_find?_eq_some hf
      by_contra hne
      have hne' : d ≠ c := fun e => hne (by rw [e])
      have hsymm : Std.Symm (fun a b : Combo => a.Lt b ∨ b.Lt a) := ⟨fun a b h => h.symm⟩
      have hp' : (removeDuplicates l).Pairwise (fun a b => a.Lt b ∨ b.Lt a) := hp.imp (fun {a b} h => Or.inl h)
      have := hp'.forall h2 h hne'
      unfold Combo.Lt at this
      omega
  · intro h
    exact List.mem_of_find?_eq_some h

end Pokers
