import Verif.Spec.Draws
import Verif.Proofs.Ranks
/-!
# The draw flags
-/
namespace Pokers
open Spec

theorem foldl_or_testBit (g : Nat → Nat) (l : List Nat) (d k : Nat) :
    (l.foldl (fun d i => d ||| g i) d).testBit k = (d.testBit k || l.any fun i => (g i).testBit k) := by
  induction l generalizing d with
  | nil => simp
  | cons i l ih => rw [List.foldl_cons, ih, Nat.testBit_or, List.any_cons, Bool.or_assoc]

theorem and_eq_right (x m : Nat) : x &&& m = m ↔ ∀ k, m.testBit k = true → x.testBit k = true := by
  constructor
  · intro h k hk
    have := congrArg (·.testBit k) h
    simp only [Nat.testBit_and, hk, Bool.and_true] at this
    exact this
  · intro h
    apply Nat.eq_of_testBit_eq
    intro k
    rw [Nat.testBit_and]
    by_cases hk : m.testBit k = true
    · rw [hk, h k hk]; rfl
    · rw [Bool.not_eq_true] at hk
      rw [hk, Bool.and_false]

theorem pattern_testBit (p i k : Nat) : ((p <<< i) % 2 ^ 16).testBit k = (decide (k < 16) && (decide (i ≤ k) && p.testBit (k - i))) := by
  rw [Nat.testBit_mod_two_pow, Nat.testBit_shiftLeft]

theorem pattern_bits {p : Nat} {ks : List Nat} (h : (p < 256 ∧ ∀ k ∈ ks, k < 8) ∧ ∀ k < 8, p.testBit k = decide (k ∈ ks)) (k : Nat) :
    p.testBit k = decide (k ∈ ks) := by
  by_cases hk : k < 8
  · exact h.2 k hk
  · rw [Nat.testBit_lt_two_pow (lt_of_lt_of_le h.1.1 (show 2 ^ 8 ≤ 2 ^ k from Nat.pow_le_pow_right (by omega) (by omega)))]
    symm
    rw [decide_eq_false_iff_not]
    intro hm
    exact hk (h.1.2 k hm)

/-- `x` is the set of the ranks of the cards. -/
structure RankBits (x : Nat) (cs : List Nat) : Prop where
  bit : ∀ r, x.testBit r = decide (HasRank cs r)
  lt : ∀ r, HasRank cs r → r < 13

/-- The ranks held contain a pattern shifted to `i`. -/
theorem has_pattern {x p i : Nat} {cs ks : List Nat} (hx : RankBits x cs)
    (hp : (p < 256 ∧ ∀ k ∈ ks, k < 8) ∧ ∀ k < 8, p.testBit k = decide (k ∈ ks))
    (hk : (∀ k ∈ ks, i + k < 16) ∨ ∃ k ∈ ks, i + k < 16 ∧ 13 ≤ i + k) :
    x &&& ((p <<< i) % 2 ^ 16) = (p <<< i) % 2 ^ 16 ↔ HasRanks cs i ks := by
  rw [and_eq_right]
  constructor
  · intro h
    have key : ∀ k ∈ ks, i + k < 16 → HasRank cs (i + k) := by
      intro k hk h16
      have := h (i + k) (by rw [pattern_testBit, pattern_bits hp]; simp [h16, hk])
      rw [hx.bit] at this
      exact of_decide_eq_true this
    rcases hk with hall | ⟨k, hk, h16, h13⟩
    · exact fun k hk => key k hk (hall k hk)
    · have := hx.lt _ (key k hk h16)
      omega
  · intro h k hk
    rw [pattern_testBit, pattern_bits hp] at hk
    simp only [Bool.and_eq_true, decide_eq_true_eq] at hk
    rw [hx.bit, decide_eq_true_iff]
    have := h _ hk.2.2
    rwa [show i + (k - i) = k by omega] at this

/-- Counting the ranks of a window. -/
theorem countOnes_window {x m lo hi : Nat} {cs : List Nat} (hx : RankBits x cs)
    (hm : ∀ r < 13, m.testBit r = decide (lo ≤ r ∧ r < hi)) : countOnes (x &&& m) = ranksIn cs lo hi := by
  unfold countOnes ranksIn
  rw [show List.range 64 = List.range 13 ++ (List.range 51).map (13 + ·) by decide, List.filter_append, List.length_append,
    ← List.countP_eq_length_filter, ← List.countP_eq_length_filter]
  have h0 : ((List.range 51).map (13 + ·)).countP (fun i => (x &&& m).testBit i) = 0 := by
    rw [List.countP_eq_zero]
    intro i hi
    obtain ⟨k, _, rfl⟩ := List.mem_map.1 hi
    rw [Nat.testBit_and, hx.bit, decide_eq_false (fun h => by have := hx.lt _ h; omega)]
    simp
  rw [h0, Nat.add_zero]
  apply List.countP_congr
  intro r hr
  rw [List.mem_range] at hr
  rw [Nat.testBit_and, hx.bit, hm r hr]
  simp only [Bool.and_eq_true, decide_eq_true_eq]
  tauto

theorem window_bits {i : Nat} (hi : i < 10) : ∀ r < 13, ((0b11111 <<< i) % 2 ^ 16).testBit r = decide (i ≤ r ∧ r < i + 5) := by
  revert i; decide

theorem window_bits_up {i : Nat} (hi : i < 10) :
    ∀ r < 13, ((((0b11111 <<< i) % 2 ^ 16) <<< 1) % 2 ^ 16).testBit r = decide (i + 1 ≤ r ∧ r < i + 6) := by
  revert i; decide

theorem window_bits_down {i : Nat} (hi : i < 10) :
    ∀ r < 13, (((0b11111 <<< i) % 2 ^ 16) >>> 1).testBit r = decide (i - 1 ≤ r ∧ r < i + 4) := by
  revert i; decide

/-- The flags added in iteration `i` of the search for straight draws. -/
def straightFlags (cs : List Nat) (bd : Bool) (i : Nat) : Nat :=
  (((if HasRanks cs i [0, 1, 2, 3] then (if i = 0 ∨ i = 9 then 2 else 1) else 0) |||
    (if bd = true ∧ ranksIn cs i (i + 5) = 3 ∧ ranksIn cs (i + 1) (i + 6) ≤ 3 ∧ ranksIn cs (i - 1) (i + 4) ≤ 3 then 8 else 0)) |||
    (if HasRanks cs i [0, 1, 2, 4] ∨ HasRanks cs i [0, 1, 3, 4] ∨ HasRanks cs i [0, 2, 3, 4] then 2 else 0)) |||
    (if HasRanks cs i [0, 2, 3, 4, 6] ∨ HasRanks cs i [0, 1, 3, 4, 6, 7] then 4 else 0)

theorem straightDraws_eq {x : Nat} {cs : List Nat} (hx : RankBits x cs) (bd : Bool) :
    straightDraws x bd = (List.range 10).foldl (fun d i => d ||| straightFlags cs bd i) 0 := by
  unfold straightDraws
  apply foldl_congr_mem
  intro d i hi
  have hi := List.mem_range.1 hi
  have p1 := has_pattern (i := i) (p := 0b1111) (ks := [0, 1, 2, 3]) hx (by decide) (Or.inl (by intro k hk; simp at hk; omega))
  have p2 := has_pattern (i := i) (p := 0b10111) (ks := [0, 1, 2, 4]) hx (by decide) (Or.inl (by intro k hk; simp at hk; omega))
  have p3 := has_pattern (i := i) (p := 0b11011) (ks := [0, 1, 3, 4]) hx (by decide) (Or.inl (by intro k hk; simp at hk; omega))
  have p4 := has_pattern (i := i) (p := 0b11101) (ks := [0, 2, 3, 4]) hx (by decide) (Or.inl (by intro k hk; simp at hk; omega))
  have p5 := has_pattern (i := i) (p := 0b1011101) (ks := [0, 2, 3, 4, 6]) hx (by decide) (Or.inl (by intro k hk; simp at hk; omega))
  have p6 := has_pattern (i := i) (p := 0b11011011) (ks := [0, 1, 3, 4, 6, 7]) hx (by decide)
    (by
      by_cases h9 : i = 9
      · exact Or.inr ⟨6, by simp, by omega, by omega⟩
      · exact Or.inl (by intro k hk; simp at hk; omega))
  have c1 := countOnes_window hx (window_bits hi)
  have c2 := countOnes_window hx (window_bits_up hi)
  have c3 := countOnes_window hx (window_bits_down hi)
  simp only [p1, p2, p3, p4, p5, p6, c1, c2, c3]
  unfold straightFlags
  have e1 : (if HasRanks cs i [0, 1, 2, 3] then (if i = 0 ∨ i = 9 then d ||| 2 else d ||| 1) else d) =
      d ||| (if HasRanks cs i [0, 1, 2, 3] then (if i = 0 ∨ i = 9 then 2 else 1) else 0) := by split_ifs <;> simp
  rw [e1]
  generalize (if HasRanks cs i [0, 1, 2, 3] then (if i = 0 ∨ i = 9 then 2 else 1) else 0) = u1
  have e2 : (if bd = true then
        (if ranksIn cs i (i + 5) = 3 then
          (if (!decide (ranksIn cs (i + 1) (i + 6) > 3) && !decide (ranksIn cs (i - 1) (i + 4) > 3)) = true then d ||| u1 ||| 8 else d ||| u1)
        else d ||| u1)
      else d ||| u1) = (d ||| u1) ||| (if bd = true ∧ ranksIn cs i (i + 5) = 3 ∧ ranksIn cs (i + 1) (i + 6) ≤ 3 ∧ ranksIn cs (i - 1) (i + 4) ≤ 3 then 8 else 0) := by
    by_cases hb : bd = true <;> by_cases h3 : ranksIn cs i (i + 5) = 3 <;> by_cases h4 : ranksIn cs (i + 1) (i + 6) ≤ 3 <;>
      by_cases h5 : ranksIn cs (i - 1) (i + 4) ≤ 3 <;> simp [hb, h3, h4, h5]
  rw [e2]
  simp only [Nat.or_assoc]
  split_ifs <;> simp [Nat.or_assoc]

theorem straightDraws_bits {x : Nat} {cs : List Nat} (hx : RankBits x cs) (bd : Bool) :
    ((straightDraws x bd).testBit 0 = true ↔ OpenEnded cs) ∧
    ((straightDraws x bd).testBit 1 = true ↔ Gutshot cs) ∧
    ((straightDraws x bd).testBit 2 = true ↔ DoubleGutshot cs) ∧
    ((straightDraws x bd).testBit 3 = true ↔ bd = true ∧ BackdoorStraight cs) ∧
    ∀ k, 4 ≤ k → (straightDraws x bd).testBit k = false := by
  have hb : ∀ k, (straightDraws x bd).testBit k = true ↔ ∃ i < 10, (straightFlags cs bd i).testBit k = true := by
    intro k
    rw [straightDraws_eq hx, foldl_or_testBit]
    simp
  have hlt : ∀ i k, 0 ∈ k → 4 ∈ k → HasRanks cs i k → i ≤ 8 := by
    intro i k _ h4 h
    have := hx.lt _ (h 4 h4)
    omega
  have f0 : ∀ i, (straightFlags cs bd i).testBit 0 = true ↔ HasRanks cs i [0, 1, 2, 3] ∧ ¬ (i = 0 ∨ i = 9) := by
    intro i; unfold straightFlags; simp only [Nat.testBit_or]; split_ifs <;> simp [*]
  have f1 : ∀ i, (straightFlags cs bd i).testBit 1 = true ↔ (HasRanks cs i [0, 1, 2, 3] ∧ (i = 0 ∨ i = 9)) ∨
      HasRanks cs i [0, 1, 2, 4] ∨ HasRanks cs i [0, 1, 3, 4] ∨ HasRanks cs i [0, 2, 3, 4] := by
    intro i; unfold straightFlags; simp only [Nat.testBit_or]; split_ifs <;> simp [*] <;> decide
  have f2 : ∀ i, (straightFlags cs bd i).testBit 2 = true ↔ HasRanks cs i [0, 2, 3, 4, 6] ∨ HasRanks cs i [0, 1, 3, 4, 6, 7] := by
    intro i; unfold straightFlags; simp only [Nat.testBit_or]; split_ifs <;> simp [*] <;> decide
  have f3 : ∀ i, (straightFlags cs bd i).testBit 3 = true ↔
      bd = true ∧ ranksIn cs i (i + 5) = 3 ∧ ranksIn cs (i + 1) (i + 6) ≤ 3 ∧ ranksIn cs (i - 1) (i + 4) ≤ 3 := by
    intro i; unfold straightFlags; simp only [Nat.testBit_or]; split_ifs <;> simp [*] <;> decide
  have f4 : ∀ i k, 4 ≤ k → (straightFlags cs bd i).testBit k = false := by
    intro i k hk
    apply Nat.testBit_lt_two_pow
    refine lt_of_lt_of_le ?_ (show 2 ^ 4 ≤ 2 ^ k from Nat.pow_le_pow_right (by omega) hk)
    unfold straightFlags; split_ifs <;> decide
  refine ⟨?_, ?_, ?_, ?_, ?_⟩
  · rw [hb]
    constructor
    · rintro ⟨i, hi, h⟩
      rw [f0] at h
      exact ⟨i, by omega, by omega, h.1⟩
    · rintro ⟨i, h1, h8, h⟩
      exact ⟨i, by omega, (f0 i).2 ⟨h, by omega⟩⟩
  · rw [hb]
    constructor
    · rintro ⟨i, hi, h⟩
      rw [f1] at h
      rcases h with ⟨h, rfl | rfl⟩ | h
      · exact Or.inl h
      · exact Or.inr (Or.inl h)
      · exact Or.inr (Or.inr ⟨i, h⟩)
    · rintro (h | h | ⟨i, h⟩)
      · exact ⟨0, by omega, (f1 0).2 (Or.inl ⟨h, Or.inl rfl⟩)⟩
      · exact ⟨9, by omega, (f1 9).2 (Or.inl ⟨h, Or.inr rfl⟩)⟩
      · refine ⟨i, ?_, (f1 i).2 (Or.inr h)⟩
        have : i ≤ 8 := by
          rcases h with h | h | h <;> exact hlt _ _ (by simp) (by simp) h
        omega
  · rw [hb]
    constructor
    · rintro ⟨i, hi, h⟩
      exact ⟨i, (f2 i).1 h⟩
    · rintro ⟨i, h⟩
      refine ⟨i, ?_, (f2 i).2 h⟩
      have : i ≤ 8 := by rcases h with h | h <;> exact hlt _ _ (by simp) (by simp) h
      omega
  · rw [hb]
    constructor
    · rintro ⟨i, hi, h⟩
      rw [f3] at h
      exact ⟨h.1, i, by omega, h.2⟩
    · rintro ⟨h0, i, hi, h⟩
      exact ⟨i, by omega, (f3 i).2 ⟨h0, h⟩⟩
  · intro k hk
    rw [Bool.eq_false_iff, Ne, hb]
    rintro ⟨i, _, h⟩
    rw [f4 i k hk] at h
    exact absurd h (by simp)

/-! ## The best straight -/

theorem nutWindow_bits {j : Nat} (hj : j ≤ 9) :
    ∀ r < 13, (0b1111100000000 >>> j).testBit r = decide ((nutWindow j).1 ≤ r ∧ r < (nutWindow j).2) := by
  have : ∀ j < 10, ∀ r < 13, (0b1111100000000 >>> j).testBit r = decide ((nutWindow j).1 ≤ r ∧ r < (nutWindow j).2) := by decide
  exact this j (by omega)

theorem nutWindow_has {x j : Nat} {cs : List Nat} (hx : RankBits x cs) (hj : j ≤ 9) :
    x &&& (0b1111100000000 >>> j) = 0b1111100000000 >>> j ↔ ∀ r, (nutWindow j).1 ≤ r → r < (nutWindow j).2 → HasRank cs r := by
  rw [and_eq_right]
  have h13 : ∀ k, (0b1111100000000 >>> j).testBit k = true → k < 13 := by
    intro k hk
    by_contra hc
    rw [Nat.testBit_lt_two_pow] at hk
    · simp at hk
    · refine lt_of_lt_of_le (lt_of_le_of_lt (Nat.shiftRight_le _ _) ?_) (show 2 ^ 13 ≤ 2 ^ k from Nat.pow_le_pow_right (by omega) (by omega))
      decide
  constructor
  · intro h r h1 h2
    have hr : r < 13 := by unfold nutWindow at h2; simp only at h2; omega
    have := h r (by rw [nutWindow_bits hj r hr, decide_eq_true_iff]; exact ⟨h1, h2⟩)
    rw [hx.bit] at this
    exact of_decide_eq_true this
  · intro h k hk
    have := h13 k hk
    rw [nutWindow_bits hj k this, decide_eq_true_iff] at hk
    rw [hx.bit, decide_eq_true_iff]
    exact h k hk.1 hk.2

/-- The search from window `j` on. -/
def NutFrom (board cs : List Nat) (j : Nat) : Prop :=
  ∃ i ≤ 9, j ≤ i ∧ (∀ k < i, j ≤ k → ranksIn board (nutWindow k).1 (nutWindow k).2 < 3) ∧
    3 ≤ ranksIn board (nutWindow i).1 (nutWindow i).2 ∧ ∀ r, (nutWindow i).1 ≤ r → r < (nutWindow i).2 → HasRank cs r

open Classical in
theorem nutStraight_spec {x y : Nat} {cs board : List Nat} (hx : RankBits x cs) (hy : RankBits y board) :
    ∀ fuel j, fuel + j = 10 → nutStraight x y fuel (0b1111100000000 >>> j) =
      if NutFrom board cs j then 16 else 0 := by
  intro fuel
  induction fuel with
  | zero =>
    intro j hj
    rw [nutStraight, if_neg]
    rintro ⟨i, hi, hji, _⟩
    omega
  | succ fuel ih =>
    intro j hj
    rw [nutStraight, countOnes_window hy (nutWindow_bits (by omega : j ≤ 9))]
    by_cases h3 : ranksIn board (nutWindow j).1 (nutWindow j).2 ≥ 3
    · rw [if_pos h3]
      simp only [nutWindow_has hx (by omega : j ≤ 9)]
      apply if_congr _ rfl rfl
      constructor
      · intro h
        exact ⟨j, by omega, le_refl _, fun k h1 h2 => by omega, h3, h⟩
      · rintro ⟨i, hi, hji, h1, h2, h⟩
        rcases Nat.eq_or_lt_of_le hji with rfl | hlt
        · exact h
        · have := h1 j hlt (le_refl _)
          omega
    · rw [if_neg h3, ← Nat.shiftRight_add, ih (j + 1) (by omega)]
      apply if_congr _ rfl rfl
      constructor
      · rintro ⟨i, hi, hji, h1, h2⟩
        refine ⟨i, hi, by omega, fun k hk hjk => ?_, h2⟩
        rcases Nat.eq_or_lt_of_le hjk with rfl | hlt
        · exact Nat.lt_of_not_le h3
        · exact h1 k hk hlt
      · rintro ⟨i, hi, hji, h1, h2⟩
        refine ⟨i, hi, ?_, fun k hk hjk => h1 k hk (by omega), h2⟩
        rcases Nat.eq_or_lt_of_le hji with rfl | hlt
        · exact absurd h2.1 h3
        · exact hlt

theorem nutStraight_bits {x y : Nat} {cs board : List Nat} (hx : RankBits x cs) (hy : RankBits y board) (k : Nat) :
    (nutStraight x y 10 0b1111100000000).testBit k = true ↔ k = 4 ∧ NutStraight board cs := by
  classical
  have := nutStraight_spec hx hy 10 0 rfl
  rw [Nat.shiftRight_zero] at this
  rw [this]
  have e : NutFrom board cs 0 ↔ NutStraight board cs := by
    unfold NutFrom NutStraight
    simp
  simp only [e]
  by_cases h : NutStraight board cs
  · rw [if_pos h, show (16 : Nat) = 2 ^ 4 by norm_num, Nat.testBit_two_pow, decide_eq_true_iff]
    simp [h, eq_comm]
  · rw [if_neg h]
    simp [h]

/-! ## Flush draws -/

theorem nut_table_bool : ∀ u < 31, ∀ v < 32, u &&& v = 0 →
    (leadingZeros 16 (((u <<< 8) ^^^ 0b1111100000000) &&& 0b1111100000000) == leadingZeros 16 (v <<< 8)) =
      (List.range 5).any fun r => v.testBit r && (List.range 5).all fun q => decide (r < q → u.testBit q = true) := by
  decide +kernel

theorem nut_table : ∀ u < 31, ∀ v < 32, u &&& v = 0 →
    ((leadingZeros 16 (((u <<< 8) ^^^ 0b1111100000000) &&& 0b1111100000000) == leadingZeros 16 (v <<< 8)) = true ↔
      ∃ r ∈ List.range 5, v.testBit r = true ∧ ∀ q < 5, r < q → u.testBit q = true) := by
  intro u hu v hv h
  rw [nut_table_bool u hu v hv h]
  simp only [List.any_eq_true, Bool.and_eq_true, List.all_eq_true, decide_eq_true_eq, List.mem_range]

theorem top_five (m : Nat) : m &&& 0b1111100000000 = ((m >>> 8) % 32) <<< 8 := by
  apply Nat.eq_of_testBit_eq
  intro k
  have h : (0b1111100000000 : Nat).testBit k = (decide (8 ≤ k) && decide (k - 8 < 5)) := by
    rw [show (0b1111100000000 : Nat) = (2 ^ 5 - 1) <<< 8 by decide, Nat.testBit_shiftLeft, Nat.testBit_two_pow_sub_one]
  rw [Nat.testBit_and, h, Nat.testBit_shiftLeft, show (32 : Nat) = 2 ^ 5 by norm_num, Nat.testBit_mod_two_pow, Nat.testBit_shiftRight]
  by_cases h8 : 8 ≤ k
  · rw [show 8 + (k - 8) = k by omega]
    simp only [h8, decide_true, Bool.true_and]
    exact Bool.and_comm _ _
  · simp [h8]

theorem holdsNutCard_iff {b h : Nat} (hd : ∀ r, h.testBit r = true → b.testBit r = false)
    (hm : ∃ r, 8 ≤ r ∧ r < 13 ∧ b.testBit r = false) :
    holdsNutCard b h = true ↔ ∃ r, 8 ≤ r ∧ r < 13 ∧ h.testBit r = true ∧ ∀ q, r < q → q < 13 → b.testBit q = true := by
  unfold holdsNutCard
  simp only
  rw [top_five b, top_five h]
  have bits : ∀ m r, r < 5 → ((m >>> 8) % 32).testBit r = m.testBit (8 + r) := by
    intro m r hr
    rw [show (32 : Nat) = 2 ^ 5 by norm_num, Nat.testBit_mod_two_pow, Nat.testBit_shiftRight]
    simp [hr]
  have high : ∀ m r, 5 ≤ r → ((m >>> 8) % 32).testBit r = false := by
    intro m r hr
    rw [show (32 : Nat) = 2 ^ 5 by norm_num, Nat.testBit_mod_two_pow]
    simp [hr]
  have hu : (b >>> 8) % 32 < 31 := by
    have h32 : (b >>> 8) % 32 < 32 := Nat.mod_lt _ (by omega)
    have : (b >>> 8) % 32 ≠ 31 := by
      intro he
      obtain ⟨r, h8, h13, hf⟩ := hm
      have := bits b (r - 8) (by omega)
      rw [he, show 8 + (r - 8) = r by omega, hf] at this
      have h31 : ∀ r < 5, (31 : Nat).testBit r = true := by decide
      rw [h31 _ (by omega)] at this
      exact absurd this (by simp)
    omega
  rw [nut_table _ hu _ (Nat.mod_lt _ (by omega))]
  · constructor
    · rintro ⟨r, hr, h1, h2⟩
      rw [List.mem_range] at hr
      rw [bits h r hr] at h1
      refine ⟨8 + r, by omega, by omega, h1, fun q hq hq13 => ?_⟩
      have := h2 (q - 8) (by omega) (by omega)
      rwa [bits b _ (by omega), show 8 + (q - 8) = q by omega] at this
    · rintro ⟨r, h8, h13, h1, h2⟩
      refine ⟨r - 8, List.mem_range.2 (by omega), ?_, fun q hq hrq => ?_⟩
      · rwa [bits h _ (by omega), show 8 + (r - 8) = r by omega]
      · rw [bits b q hq]
        exact h2 _ (by omega) (by omega)
  · rw [and_eq_zero_iff]
    intro i hi
    by_cases h5 : i < 5
    · rw [bits b i h5] at hi
      rw [bits h i h5]
      by_contra hc
      rw [Bool.not_eq_false] at hc
      rw [hd _ hc] at hi
      exact absurd hi (by simp)
    · exact high h i (by omega)

theorem hole_suitMask {a b s r : Nat} (ha : a < 52) (hb : b < 52) (hs : s < 4) :
    ((Hand.fromHoleCards a b).getSuitMask s).testBit r = decide (4 * r + s ∈ [a, b]) := by
  have h := getSuitMask_testBit (cs := [a, b]) (by simp [ha, hb]) (s := s) (r := r) hs
  have e : (ofCards [a, b]).mask = (Hand.fromHoleCards a b).mask := by
    simp [ofCards, Hand.add_def, Hand.fromHoleCards, Hand.default]
  unfold Hand.getSuitMask at h ⊢
  rw [← e]
  exact h

/-- Some of the five highest cards of a suit is not on a board with fewer than five cards. -/
theorem missing_top {board : List Nat} (h5 : board.length < 5) (s : Nat) : ∃ r, 8 ≤ r ∧ r < 13 ∧ 4 * r + s ∉ board := by
  by_contra hc
  push Not at hc
  have hsub : ((List.range 5).map fun k => 4 * (8 + k) + s) ⊆ board := by
    intro x hx
    obtain ⟨k, hk, rfl⟩ := List.mem_map.1 hx
    rw [List.mem_range] at hk
    exact hc _ (by omega) (by omega)
  have hn : ((List.range 5).map fun k => 4 * (8 + k) + s).Nodup := by
    apply List.Nodup.map _ List.nodup_range
    intro x y h
    simp only at h
    omega
  have := (List.Nodup.subperm hn hsub).length_le
  simp at this
  omega

theorem holdsNutCard_spec {board : List Nat} {a b s : Nat} (h : IsCards (board ++ [a, b])) (h5 : board.length < 5) (hs : s < 4) :
    holdsNutCard ((ofCards board).getSuitMask s) ((Hand.fromHoleCards a b).getSuitMask s) = true ↔ HoldsBest board [a, b] s := by
  have hb : ∀ c ∈ board, c < 52 := fun c hc => h.2 c (by simp [hc])
  have ha52 : a < 52 := h.2 a (by simp)
  have hb52 : b < 52 := h.2 b (by simp)
  have hdis : ∀ c ∈ [a, b], c ∉ board := fun c hc hc' => (List.nodup_append.1 h.1).2.2 c hc' c hc rfl
  rw [holdsNutCard_iff]
  · constructor
    · rintro ⟨r, h8, h13, h1, h2⟩
      rw [hole_suitMask ha52 hb52 hs, decide_eq_true_iff] at h1
      refine ⟨_, h1, by unfold Spec.suit; omega, fun y hy hys hlt => ?_⟩
      unfold Spec.suit at hys
      have := h2 (y / 4) (by omega) (by omega)
      rw [getSuitMask_testBit hb hs, decide_eq_true_iff] at this
      rwa [show 4 * (y / 4) + s = y by omega] at this
    · rintro ⟨x, hx, hxs, hbest⟩
      unfold Spec.suit at hxs
      have hx52 : x < 52 := h.2 x (by simp at hx ⊢; tauto)
      have h8 : 8 ≤ x / 4 := by
        by_contra hc
        obtain ⟨r, h8, h13, hr⟩ := missing_top h5 s
        exact hr (hbest _ (by omega) (by unfold Spec.suit; omega) (by omega))
      refine ⟨x / 4, h8, by omega, ?_, fun q hq hq13 => ?_⟩
      · rw [hole_suitMask ha52 hb52 hs, decide_eq_true_iff, show 4 * (x / 4) + s = x by omega]
        exact hx
      · rw [getSuitMask_testBit hb hs, decide_eq_true_iff]
        exact hbest _ (by omega) (by unfold Spec.suit; omega) (by omega)
  · intro r hr
    rw [hole_suitMask ha52 hb52 hs, decide_eq_true_iff] at hr
    rw [getSuitMask_testBit hb hs, decide_eq_false_iff_not]
    exact hdis _ hr
  · obtain ⟨r, h8, h13, hr⟩ := missing_top h5 s
    exact ⟨r, h8, h13, by rw [getSuitMask_testBit hb hs, decide_eq_false_iff_not]; exact hr⟩

open Classical in
/-- The flags added for suit `s`. -/
noncomputable def suitFlags (board : List Nat) (a b : Nat) (bd : Bool) (s : Nat) : Nat :=
  (if suitTotal (board ++ [a, b]) s = 4 then 32 else if suitTotal (board ++ [a, b]) s = 3 ∧ bd = true then 64 else 0) |||
  (if (suitTotal (board ++ [a, b]) s = 4 ∨ (suitTotal (board ++ [a, b]) s = 3 ∧ bd = true)) ∧ HoldsBest board [a, b] s then 128 else 0)

theorem suitCount_eq {board : List Nat} {a b s : Nat} (h : IsCards (board ++ [a, b])) (h5 : board.length ≤ 5) (hs : s < 4) :
    (ofCards (board ++ [a, b])).suitCount s = (suitTotal (board ++ [a, b]) s : Nat) := by
  have hl : (board ++ [a, b]).length = board.length + 2 := by simp
  exact (C08_counters h (by omega) (fun s _ => (suits_le_length _ s).trans (by omega))).2.1 s hs

theorem flushDraws_eq {board : List Nat} {a b : Nat} (h : IsCards (board ++ [a, b])) (h5 : board.length < 5) (bd : Bool) :
    flushDraws (Hand.fromHoleCards a b) (ofCards board) (ofCards (board ++ [a, b])) bd =
      (List.range 4).foldl (fun d s => d ||| suitFlags board a b bd s) 0 := by
  unfold flushDraws
  apply foldl_congr_mem
  intro d s hs
  have hs := List.mem_range.1 hs
  have c4 : (((suitTotal (board ++ [a, b]) s : Nat) : Int) = 4) ↔ suitTotal (board ++ [a, b]) s = 4 := by omega
  have c3 : (((suitTotal (board ++ [a, b]) s : Nat) : Int) = 3) ↔ suitTotal (board ++ [a, b]) s = 3 := by omega
  have hn := holdsNutCard_spec h h5 hs
  simp only [suitCount_eq h (by omega) hs, c4, c3]
  unfold suitFlags
  rw [← hn]
  generalize holdsNutCard ((ofCards board).getSuitMask s) ((Hand.fromHoleCards a b).getSuitMask s) = n
  generalize suitTotal (board ++ [a, b]) s = t
  by_cases h4 : t = 4
  · subst h4
    cases n <;> simp [Nat.or_assoc]
  · by_cases h3 : t = 3
    · subst h3
      cases n <;> cases bd <;> simp [Nat.or_assoc]
    · simp [h3, h4]

theorem flushDraws_bits {board : List Nat} {a b : Nat} (h : IsCards (board ++ [a, b])) (h5 : board.length < 5) (bd : Bool) :
    let f := flushDraws (Hand.fromHoleCards a b) (ofCards board) (ofCards (board ++ [a, b])) bd
    (f.testBit 5 = true ↔ ∃ s < 4, suitTotal (board ++ [a, b]) s = 4) ∧
    (f.testBit 6 = true ↔ bd = true ∧ ∃ s < 4, suitTotal (board ++ [a, b]) s = 3) ∧
    (f.testBit 7 = true ↔ ∃ s < 4, (suitTotal (board ++ [a, b]) s = 4 ∨ (suitTotal (board ++ [a, b]) s = 3 ∧ bd = true)) ∧
      HoldsBest board [a, b] s) ∧
    ∀ k, k < 5 ∨ 8 ≤ k → f.testBit k = false := by
  intro f
  have hb : ∀ k, f.testBit k = true ↔ ∃ i < 4, (suitFlags board a b bd i).testBit k = true := by
    intro k
    simp only [f]
    rw [flushDraws_eq h h5, foldl_or_testBit]
    simp
  have f5 : ∀ s, (suitFlags board a b bd s).testBit 5 = true ↔ suitTotal (board ++ [a, b]) s = 4 := by
    intro i; unfold suitFlags; simp only [Nat.testBit_or]; split_ifs <;> simp [*] <;> decide
  have f6 : ∀ s, (suitFlags board a b bd s).testBit 6 = true ↔ bd = true ∧ suitTotal (board ++ [a, b]) s = 3 := by
    intro i; unfold suitFlags; simp only [Nat.testBit_or]; split_ifs <;> simp [*] <;> first | decide | omega | tauto
  have f7 : ∀ s, (suitFlags board a b bd s).testBit 7 = true ↔
      (suitTotal (board ++ [a, b]) s = 4 ∨ (suitTotal (board ++ [a, b]) s = 3 ∧ bd = true)) ∧ HoldsBest board [a, b] s := by
    intro i; unfold suitFlags; simp only [Nat.testBit_or]; split_ifs <;> simp [*] <;> first | decide | omega | tauto
  have f8 : ∀ s k, k < 5 ∨ 8 ≤ k → (suitFlags board a b bd s).testBit k = false := by
    intro i k hk
    have t : ∀ m ∈ [0, 32, 64, 128], ∀ m' ∈ [0, 32, 64, 128], (m ||| m').testBit k = false := by
      intro m hm m' hm'
      rcases hk with hk | hk
      · have : ∀ m ∈ [0, 32, 64, 128], ∀ m' ∈ [0, 32, 64, 128], ∀ k < 5, (m ||| m').testBit k = false := by decide
        exact this m hm m' hm' k hk
      · apply Nat.testBit_lt_two_pow
        refine lt_of_lt_of_le ?_ (show 2 ^ 8 ≤ 2 ^ k from Nat.pow_le_pow_right (by omega) hk)
        have : ∀ m ∈ [0, 32, 64, 128], ∀ m' ∈ [0, 32, 64, 128], m ||| m' < 2 ^ 8 := by decide
        exact this m hm m' hm'
    unfold suitFlags
    apply t <;> split_ifs <;> simp
  refine ⟨?_, ?_, ?_, ?_⟩
  · rw [hb]; simp only [f5]
  · rw [hb]; simp only [f6]
    constructor
    · rintro ⟨s, hs, h1, h2⟩; exact ⟨h1, s, hs, h2⟩
    · rintro ⟨h1, s, hs, h2⟩; exact ⟨s, hs, h1, h2⟩
  · rw [hb]; simp only [f7]
  · intro k hk
    rw [Bool.eq_false_iff, Ne, hb]
    rintro ⟨s, _, h⟩
    rw [f8 s k hk] at h
    exact absurd h (by simp)

theorem suitTotal_eq (cs : List Nat) (s : Nat) : suitTotal cs s = suitCnt cs s := by
  unfold suitTotal suitCnt
  apply List.countP_congr
  intro c _
  simp

theorem nutFlush_bits {board : List Nat} {a b f : Nat} (h : IsCards (board ++ [a, b])) (h5 : board.length < 5)
    (hf : nutFlush (Hand.fromHoleCards a b) (ofCards board) (ofCards (board ++ [a, b])) = some f) (k : Nat) :
    f.testBit k = true ↔ k = 7 ∧ ∃ s < 4, 5 ≤ suitTotal (board ++ [a, b]) s ∧ HoldsBest board [a, b] s := by
  unfold nutFlush at hf
  cases hs : (List.range 4).find? (fun i => decide ((ofCards (board ++ [a, b])).suitCount i ≥ 5)) with
  | none => rw [hs] at hf; simp at hf
  | some s =>
    rw [hs] at hf
    simp only at hf
    have hs4 : s < 4 := List.mem_range.1 (List.mem_of_find?_eq_some hs)
    have hs5 := List.find?_some hs
    rw [decide_eq_true_iff, suitCount_eq h (by omega) hs4] at hs5
    have hs5 : 5 ≤ suitTotal (board ++ [a, b]) s := by exact_mod_cast hs5
    have hl : (board ++ [a, b]).length ≤ 9 := by simp; omega
    have huniq : (∃ t < 4, 5 ≤ suitTotal (board ++ [a, b]) t ∧ HoldsBest board [a, b] t) ↔ HoldsBest board [a, b] s := by
      constructor
      · rintro ⟨t, ht, h5t, hb⟩
        rw [suitTotal_eq] at h5t hs5
        by_cases he : t = s
        · rwa [he] at hb
        · have := flush_unique hl ht hs4 h5t he
          omega
      · intro hb
        exact ⟨s, hs4, hs5, hb⟩
    rw [huniq]
    have hx : ¬ ((ofCards board).getSuitMask s &&& 0b1111100000000 ^^^ 0b1111100000000) &&& 0b1111100000000 = 0 := by
      obtain ⟨r, h8, h13, hr⟩ := missing_top h5 s
      intro h0
      have := congrArg (·.testBit r) h0
      have hb : ∀ c ∈ board, c < 52 := fun c hc => h.2 c (by simp [hc])
      have ht : ∀ r < 13, 8 ≤ r → (0b1111100000000 : Nat).testBit r = true := by decide
      simp only [Nat.testBit_and, Nat.testBit_xor, getSuitMask_testBit hb hs4, ht r h13 h8, hr] at this
      simp at this
    rw [if_neg hx] at hf
    have hn := holdsNutCard_spec h h5 hs4
    rw [← hn]
    split_ifs at hf with hc
    · cases hf
      rw [show (128 : Nat) = 2 ^ 7 by norm_num, Nat.testBit_two_pow, decide_eq_true_iff]
      simp [hc, eq_comm]
    · cases hf
      simp [hc]

theorem rankBits_ofCards {cs : List Nat} (h : IsCards cs) (hl : cs.length ≤ 12) : RankBits (ofCards cs).getRankMask cs := by
  constructor
  · intro r
    exact (C08_counters h (by omega) (fun s _ => (suits_le_length _ s).trans (by omega))).2.2.2.2.2 r
  · rintro r ⟨c, hc, rfl⟩
    have := h.2 c hc
    unfold Spec.rank
    omega

theorem getDraw_bits {board : List Nat} {a b k d : Nat} (h : IsCards (board ++ [a, b])) (h5 : board.length < 5)
    (hd : getDraw (Hand.fromHoleCards a b) (ofCards board) k = some d) :
    (d.testBit 0 = true ↔ k < 4 ∧ OpenEnded (board ++ [a, b])) ∧
    (d.testBit 1 = true ↔ k < 4 ∧ Gutshot (board ++ [a, b])) ∧
    (d.testBit 2 = true ↔ k < 4 ∧ DoubleGutshot (board ++ [a, b])) ∧
    (d.testBit 3 = true ↔ k < 4 ∧ board.length < 4 ∧ BackdoorStraight (board ++ [a, b])) ∧
    (d.testBit 4 = true ↔ k = 4 ∧ NutStraight board (board ++ [a, b])) ∧
    (d.testBit 5 = true ↔ k < 5 ∧ ∃ s < 4, suitTotal (board ++ [a, b]) s = 4) ∧
    (d.testBit 6 = true ↔ k < 5 ∧ board.length < 4 ∧ ∃ s < 4, suitTotal (board ++ [a, b]) s = 3) ∧
    (d.testBit 7 = true ↔ ∃ s < 4, HoldsBest board [a, b] s ∧ (k < 5 ∧ (suitTotal (board ++ [a, b]) s = 4 ∨
      (suitTotal (board ++ [a, b]) s = 3 ∧ board.length < 4)) ∨ k = 5 ∧ 5 ≤ suitTotal (board ++ [a, b]) s)) ∧
    ∀ i, 8 ≤ i → d.testBit i = false := by
  have hb : IsCards board := ⟨(List.nodup_append.1 h.1).1, fun c hc => h.2 c (by simp [hc])⟩
  have hl : (board ++ [a, b]).length ≤ 12 := by simp; omega
  have hx := rankBits_ofCards h hl
  have hy := rankBits_ofCards hb (by omega)
  have hp : Hand.fromHoleCards a b + ofCards board = ofCards (board ++ [a, b]) := by
    rw [Hand.add_comm', (C03_hole_cards board a b).1]
  obtain ⟨s0, s1, s2, s3, s4⟩ := straightDraws_bits hx (decide (board.length < 4))
  have n4 := nutStraight_bits hx hy
  obtain ⟨f5, f6, f7, f8⟩ := flushDraws_bits h h5 (decide (board.length < 4))
  have nf := fun f hf => nutFlush_bits (f := f) h h5 hf
  unfold getDraw at hd
  simp only [hp, countOnes_mask hb] at hd
  generalize straightDraws (ofCards (board ++ [a, b])).getRankMask (decide (board.length < 4)) = sd at *
  generalize nutStraight (ofCards (board ++ [a, b])).getRankMask (ofCards board).getRankMask 10 0b1111100000000 = ns at *
  generalize flushDraws (Hand.fromHoleCards a b) (ofCards board) (ofCards (board ++ [a, b])) (decide (board.length < 4)) = fd at *
  generalize nutFlush (Hand.fromHoleCards a b) (ofCards board) (ofCards (board ++ [a, b])) = nfo at *
  have n0 : ∀ i, i ≠ 4 → ns.testBit i = false := by
    intro i hi
    rw [Bool.eq_false_iff, Ne, n4]
    simp [hi]
  rw [decide_eq_true_iff] at s3 f6
  simp only [decide_eq_true_eq] at f7
  rcases Nat.lt_trichotomy k 4 with hk | hk | hk
  · rw [if_pos hk, if_neg (by omega), if_pos (by omega), if_neg (by omega)] at hd
    cases hd
    simp only [Nat.testBit_or, Bool.or_eq_true, f8 0 (by omega), f8 1 (by omega), f8 2 (by omega), f8 3 (by omega), f8 4 (by omega),
      s4 4 (by omega), s4 5 (by omega), s4 6 (by omega), s4 7 (by omega), s0, s1, s2, s3, f5, f6, f7]
    have h1 : k ≠ 4 := by omega
    have h2 : k < 5 := by omega
    have h3 : k ≠ 5 := by omega
    refine ⟨by simp [hk], by simp [hk], by simp [hk], by simp [hk], by simp [h1], by simp [h2], by simp [h2], ?_, ?_⟩
    · simp only [h2, h3, true_and, false_and, or_false, Bool.false_eq_true, false_or]
      simp only [and_comm]
    · intro i hi
      rw [s4 i (by omega), f8 i (by omega)]
      rfl
  · subst hk
    rw [if_neg (by omega), if_pos rfl, if_pos (by omega), if_neg (by omega)] at hd
    cases hd
    simp only [Nat.testBit_or, Bool.or_eq_true, f8 0 (by omega), f8 1 (by omega), f8 2 (by omega), f8 3 (by omega), f8 4 (by omega),
      n4, f5, f6, f7, Nat.zero_testBit]
    refine ⟨by simp, by simp, by simp, by simp, by simp, by simp, by simp, ?_, ?_⟩
    · simp [and_comm]
    · intro i hi
      rw [n0 i (by omega), f8 i (by omega)]
      rfl
  · by_cases h5' : k = 5
    · subst h5'
      simp only [show ¬ (5 : Nat) < 4 by decide, show ¬ (5 : Nat) = 4 by decide, show ¬ (5 : Nat) < 5 by decide, if_false, if_true] at hd
      cases nfo with
      | none => simp at hd
      | some f =>
        have nf := nf f rfl
        simp only [Option.map_some, Option.some.injEq, Nat.zero_or] at hd
        subst hd
        simp only [nf]
        refine ⟨by simp, by simp, by simp, by simp, by simp, by simp, by simp, ?_, ?_⟩
        · simp [and_comm]
        · intro i hi
          rw [Bool.eq_false_iff, Ne, nf]
          omega
    · have h1 : ¬ k < 4 := by omega
      have h2 : ¬ k < 5 := by omega
      have h3 : ¬ k = 4 := by omega
      simp only [h1, h2, h3, h5', if_false] at hd
      cases hd
      simp [h1, h2, h3, h5']

end Pokers
