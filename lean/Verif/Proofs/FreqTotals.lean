import Verif.Proofs.FreqPieces
/-!
From the kernel computations of `FreqPieces` to the number of hands of each category.
-/
namespace Pokers.Kernel
open Spec

set_option exponentiation.threshold 1000

/-! ### digits -/

theorem digits512_eq (l : List Nat) : digits512 l = Nat.ofDigits (2 ^ 512) l := by
  induction l with
  | nil => rfl
  | cons d l ih =>
    rw [Nat.ofDigits_cons, ← ih]
    show d + Nat.shiftLeft 1 512 * digits512 l = _
    rw [show Nat.shiftLeft 1 512 = 2 ^ 512 from Nat.one_shiftLeft 512]

theorem ofDigits_range (B : Nat) (f : Nat → Nat) (N : Nat) :
    Nat.ofDigits B ((List.range N).map f) = ∑ c ∈ Finset.range N, f c * B ^ c := by
  induction N with
  | zero => rfl
  | succ N ih =>
    rw [List.range_succ, List.map_append, Nat.ofDigits_append, ih, Finset.sum_range_succ]
    simp [Nat.mul_comm]

/-- A sum of powers, collected by exponent. -/
theorem sum_by_class {α : Type} (xs : List α) (q w : α → Nat) (B N : Nat) (h : ∀ x ∈ xs, q x < N) :
    (xs.map (fun x => B ^ q x * w x)).sum =
      Nat.ofDigits B ((List.range N).map (fun c => (xs.map (fun x => if q x = c then w x else 0)).sum)) := by
  rw [ofDigits_range]
  induction xs with
  | nil => simp
  | cons x xs ih =>
    rw [List.map_cons, List.sum_cons, ih (fun y hy => h y (List.mem_cons_of_mem _ hy))]
    simp only [List.map_cons, List.sum_cons, Nat.add_mul, Finset.sum_add_distrib, ite_mul, Nat.zero_mul]
    rw [Finset.sum_ite_eq, if_pos (Finset.mem_range.2 (h x List.mem_cons_self)), Nat.mul_comm]

theorem sum_le_length {α : Type} (xs : List α) (f : α → Nat) (M : Nat) (h : ∀ x ∈ xs, f x ≤ M) :
    (xs.map f).sum ≤ xs.length * M := by
  induction xs with
  | nil => simp
  | cons x xs ih =>
    have h1 := h x List.mem_cons_self
    have h2 := ih (fun y hy => h y (List.mem_cons_of_mem _ hy))
    rw [List.map_cons, List.sum_cons, List.length_cons, Nat.add_mul]
    omega

/-! ### the sums over hands -/

/-- All hands of `n` cards. -/
def handsOf (n : Nat) : List (List Nat) := (List.range 52).sublistsLen n

theorem handsOf_cards {n : Nat} {cs : List Nat} (h : cs ∈ handsOf n) : IsCards cs ∧ cs.length = n := by
  obtain ⟨h1, h2⟩ := List.mem_sublistsLen.1 h
  exact ⟨⟨List.nodup_range.sublist h1, fun c hc => List.mem_range.1 (h1.subset hc)⟩, h2⟩

theorem handsOf_length (n : Nat) : (handsOf n).length = Nat.choose 52 n := by
  rw [handsOf, List.length_sublistsLen, List.length_range]

theorem dot_bits (f : Nat → Nat) : dot bitsUp ((List.range 13).map f) = ∑ r ∈ Finset.range 13, f r * 2 ^ r := by
  simp only [show List.range 13 = [0,1,2,3,4,5,6,7,8,9,10,11,12] from rfl, List.map_cons, List.map_nil, dot, bitsUp,
    Finset.sum_range_succ, Finset.sum_range_zero, Nat.reducePow]
  omega

theorem suitMask_cons {cs : List Nat} {c s : Nat} (h4 : s < 4) (hc : c < 52) (hn : c ∉ cs) :
    suitMask (c :: cs) s = suitMask cs s + if c % 4 = s then 2 ^ (c / 4) else 0 := by
  by_cases hs : c % 4 = s
  · rw [if_pos hs]
    obtain ⟨r, hr, rfl⟩ : ∃ r, r < 13 ∧ c = 4 * r + s := ⟨c / 4, by omega, by omega⟩
    have e : (4 * r + s) / 4 = r := by omega
    rw [e]
    have hm : ∀ i, (4 * i + s ∈ (4 * r + s) :: cs ↔ i = r ∨ 4 * i + s ∈ cs) := fun i => by
      rw [List.mem_cons]; constructor
      · rintro (h | h)
        · exact Or.inl (by omega)
        · exact Or.inr h
      · rintro (rfl | h)
        · exact Or.inl rfl
        · exact Or.inr h
    have hb : ∀ i, (if 4 * i + s ∈ (4 * r + s) :: cs then 1 else 0) =
        (if 4 * i + s ∈ cs then 1 else 0) + if i = r then 1 else 0 := fun i => by
      by_cases hi : i = r
      · subst hi; rw [if_pos ((hm i).2 (Or.inl rfl)), if_neg hn, if_pos rfl]
      · rw [if_neg hi]
        by_cases h4 : 4 * i + s ∈ cs
        · rw [if_pos h4, if_pos ((hm i).2 (Or.inr h4))]
        · rw [if_neg h4, if_neg (fun h => ((hm i).1 h).elim hi h4)]
    simp only [suitMask, suitBits, hb, dot_bits, Nat.add_mul, Finset.sum_add_distrib, ite_mul, Nat.zero_mul, Nat.one_mul]
    rw [Finset.sum_ite_eq', if_pos (Finset.mem_range.2 hr)]
  · rw [if_neg hs, Nat.add_zero]
    unfold suitMask suitBits
    congr 1
    refine List.map_congr_left fun r _ => ?_
    have : (4 * r + s ∈ c :: cs) = (4 * r + s ∈ cs) := by
      rw [List.mem_cons, eq_iff_iff]
      exact ⟨fun h => h.resolve_left (by omega), Or.inr⟩
    simp only [this]

theorem suitMask_nil (s : Nat) : suitMask [] s = 0 := by
  simp only [suitMask, suitBits, List.not_mem_nil, if_false]; decide

theorem bitSum_eq {s : Nat} (hs : s < 4) : ∀ {cs : List Nat}, IsCards cs →
    bitSum (fun c => Nat.beq (suit c) s) cs = suitMask cs s
  | [], _ => (suitMask_nil s).symm
  | c :: cs, h => by
    have hn := List.nodup_cons.1 h.1
    have ih := bitSum_eq hs (cs := cs) ⟨hn.2, fun x hx => h.2 x (List.mem_cons_of_mem _ hx)⟩
    rw [suitMask_cons hs (h.2 c List.mem_cons_self) hn.1, ← ih]
    by_cases hc : c % 4 = s
    · rw [if_pos hc]
      have : Nat.beq (suit c) s = true := by rw [Nat.beq_eq]; exact hc
      simp [bitSum, this, Nat.add_comm]
    · rw [if_neg hc]
      have : ¬ Nat.beq (suit c) s = true := by rw [Nat.beq_eq]; exact hc
      simp [bitSum, this]

theorem prod_weights (X s : Nat) (cs : List Nat) :
    (cs.map (fun c => if suit c = s then X else 1)).prod = X ^ suitCnt cs s := by
  induction cs with
  | nil => rfl
  | cons c cs ih =>
    rw [List.map_cons, List.prod_cons, ih, suitCnt_cons]
    by_cases hc : c % 4 = s
    · rw [if_pos hc, if_pos (show suit c = s from hc), Nat.pow_succ, Nat.mul_comm]
    · rw [if_neg hc, if_neg (show ¬ suit c = s from hc), Nat.one_mul, Nat.add_zero]

/-- Cards outside the suit are chosen freely when only the suit matters. -/
theorem sumOver_free (t : Nat → Bool) (g : Nat → Nat) (l : List Nat) : ∀ a b k k' m,
    sumOver t (fun _ m => g m) l a b k m =
      Nat.choose (l.countP (fun c => !t c)) b * sumOver t (fun _ m => g m) l a 0 k' m := by
  induction l with
  | nil => intro a b k k' m; rcases a with _ | a <;> rcases b with _ | b <;> simp [sumOver]
  | cons c l ih =>
    intro a b k k' m
    by_cases ht : t c = true
    · have e : (c :: l).countP (fun c => !t c) = l.countP (fun c => !t c) := by simp [ht]
      rw [e]
      rcases a with _ | a <;> rcases b with _ | b <;> simp only [sumOver, ht, if_true, Nat.add_zero]
      · exact ih ..
      · exact ih ..
      · rw [ih (a + 1) 0 k k', ih a 0 _ (k' + RANKS.getD (c / 4) 0)]; simp
      · rw [ih (a + 1) (b + 1) k k', ih a (b + 1) _ (k' + RANKS.getD (c / 4) 0), Nat.mul_add]
    · have e : (c :: l).countP (fun c => !t c) = l.countP (fun c => !t c) + 1 := by simp [ht]
      rw [e]
      rcases b with _ | b
      · have := ih a 0 k k' m
        rcases a with _ | a <;> simpa [sumOver, ht] using this
      · have h1 := ih a (b + 1) k k' m
        have h2 := ih a b (k + RANKS.getD (c / 4) 0) k' m
        have h3 : sumOver t (fun _ m => g m) (c :: l) a 0 k' m = sumOver t (fun _ m => g m) l a 0 k' m := by
          rcases a with _ | a <;> simp [sumOver, ht]
        have h4 : sumOver t (fun _ m => g m) (c :: l) a (b + 1) k m = sumOver t (fun _ m => g m) l a (b + 1) k m +
            sumOver t (fun _ m => g m) l a b (k + RANKS.getD (c / 4) 0) m := by
          rcases a with _ | a <;> simp [sumOver, ht]
        rw [h4, h1, h2, h3, Nat.choose_succ_succ]
        ring

/-! ### bounds -/

theorem land_lt (x : Nat) : Nat.land x 0xffff < 2 ^ 16 := by
  rw [show (0xffff : Nat) = 2 ^ 16 - 1 by norm_num, land_mask]; exact Nat.mod_lt _ (by norm_num)

theorem hist_eq (sc : Nat) : hist sc = (2 ^ 32) ^ (sc >>> 12) := by
  show 1 <<< (32 * (sc >>> 12)) = _
  rw [Nat.one_shiftLeft, Nat.pow_mul]

theorem hist_le {sc : Nat} (h : sc < 2 ^ 16) : hist sc ≤ 2 ^ 480 := by
  rw [hist_eq, ← Nat.pow_mul]
  refine Nat.pow_le_pow_right (by norm_num) ?_
  rw [Nat.shiftRight_eq_div_pow]
  omega

theorem leafPlain_le (k : Nat) : leafPlain k ≤ 2 ^ 480 := hist_le (land_lt _)

theorem choose_le {n : Nat} (h : n ≤ 7) : Nat.choose 52 n ≤ 2 ^ 27 := by
  interval_cases n <;> decide

/-! ### the three sums -/

/-- Hands with `a` cards of suit `s`, by category without flushes. -/
theorem plain_sum {n s : Nat} (hn : n ≤ 7) (hs : s < 4) {d : List Nat} (hd : d.length = 8) (hx : ∀ x ∈ d, x < 2 ^ 512)
    (hp : sumPoly (Nat.shiftLeft 1 512) leafPlain rankKeys n 0 = digits512 d) :
    (List.range 8).map (fun a => ((handsOf n).map (fun cs => if suitCnt cs s = a then hist (L cs) else 0)).sum) = d := by
  rw [← rankKeys_eq, ← sumPoly_eq _ _ hs, fours_deck, sumWeighted_eq, digits512_eq,
    show Nat.shiftLeft 1 512 = 2 ^ 512 from Nat.one_shiftLeft 512] at hp
  have e : ((List.range 52).sublistsLen n).map (fun cs => (cs.map (fun c => if suit c = s then 2 ^ 512 else 1)).prod *
      leafPlain (0 + rankSum cs)) = (handsOf n).map (fun cs => (2 ^ 512) ^ suitCnt cs s * hist (L cs)) := by
    refine List.map_congr_left fun cs _ => ?_
    rw [prod_weights, Nat.zero_add]; rfl
  rw [e, sum_by_class _ _ _ _ 8] at hp
  · refine Nat.ofDigits_inj_of_len_eq (b := 2 ^ 512) (by norm_num) (by simp [hd]) ?_ hx hp
    intro x hx
    obtain ⟨a, _, rfl⟩ := List.mem_map.1 hx
    refine (sum_le_length _ _ (2 ^ 480) fun cs _ => ?_).trans_lt ?_
    · split
      · exact leafPlain_le _
      · exact Nat.zero_le _
    · rw [handsOf_length]
      calc Nat.choose 52 n * 2 ^ 480 ≤ 2 ^ 27 * 2 ^ 480 := Nat.mul_le_mul_right _ (choose_le hn)
        _ < 2 ^ 512 := by norm_num
  · intro cs hcs
    have h1 := suitCnt_le_length cs s
    have h2 := (handsOf_cards hcs).2
    omega

/-- Flushes of `a` cards in suit `s`, by category. -/
theorem suit_sum {a b s : Nat} (hs : s < 4) {v : Nat} (hv : sumSuit leafSuit suitKeys a 0 0 0 = v) :
    ((handsOf (a + b)).map (fun cs => if suitCnt cs s = a then hist (F cs s) else 0)).sum = Nat.choose 39 b * v := by
  have h1 := sumOver_free (fun c => Nat.beq (suit c) s) (fun m => hist (fastFlush m)) (List.range 52) a b 0 0 0
  have h2 : (List.range 52).countP (fun c => !Nat.beq (suit c) s) = 39 := by
    interval_cases s <;> decide
  have h3 : sumOver (fun c => Nat.beq (suit c) s) (fun _ m => hist (fastFlush m)) (List.range 52) a 0 0 0 = v := by
    rw [← hv, ← suitKeys_eq, ← sumSuit_eq _ hs, fours_deck]
  rw [h2, h3, sumOver_eq] at h1
  rw [← h1]
  congr 1
  refine List.map_congr_left fun cs hcs => ?_
  have e : suitCnt cs s = cs.countP (fun c => Nat.beq (suit c) s) := rfl
  rw [e]
  congr 1
  rw [Nat.zero_add, bitSum_eq hs (handsOf_cards hcs).1]; rfl

theorem suit_sum_zero {n a s : Nat} (h : n < a) :
    ((handsOf n).map (fun cs => if suitCnt cs s = a then hist (F cs s) else 0)).sum = 0 := by
  rw [List.map_congr_left (g := fun _ => 0)]
  · simp
  · intro cs hcs
    have h1 := suitCnt_le_length cs s
    have h2 := (handsOf_cards hcs).2
    rw [if_neg (by omega)]

/-- One hand: replacing the category without flushes by the category of the flush, if there is one. -/
theorem hist_evaluate {cs : List Nat} (h : IsCards cs) (hl : cs.length ≤ 7) :
    hist (ofCards cs).evaluate + ((if 5 ≤ suitCnt cs 0 then hist (L cs) else 0) + (if 5 ≤ suitCnt cs 1 then hist (L cs) else 0) +
      (if 5 ≤ suitCnt cs 2 then hist (L cs) else 0) + (if 5 ≤ suitCnt cs 3 then hist (L cs) else 0)) =
    hist (L cs) + ((if 5 ≤ suitCnt cs 0 then hist (F cs 0) else 0) + (if 5 ≤ suitCnt cs 1 then hist (F cs 1) else 0) +
      (if 5 ≤ suitCnt cs 2 then hist (F cs 2) else 0) + (if 5 ≤ suitCnt cs 3 then hist (F cs 3) else 0)) := by
  rcases flush_cases cs with hn | ⟨s, hs, h5⟩
  · rw [evaluate_noflush h.2 hn]
    have h0 := hn 0 (by omega); have h1 := hn 1 (by omega); have h2 := hn 2 (by omega); have h3 := hn 3 (by omega)
    simp only [show ¬ 5 ≤ suitCnt cs 0 by omega, show ¬ 5 ≤ suitCnt cs 1 by omega, show ¬ 5 ≤ suitCnt cs 2 by omega,
      show ¬ 5 ≤ suitCnt cs 3 by omega, if_false]
  · rw [evaluate_flush h (by omega) hs h5]
    have hu := fun t ht hst => flush_unique (t := t) (by omega : cs.length ≤ 9) hs ht h5 hst
    rcases (show s = 0 ∨ s = 1 ∨ s = 2 ∨ s = 3 by omega) with rfl | rfl | rfl | rfl
    · have h1 := hu 1 (by omega) (by omega); have h2 := hu 2 (by omega) (by omega); have h3 := hu 3 (by omega) (by omega)
      rw [if_pos h5, if_pos h5]
      simp only [show ¬ 5 ≤ suitCnt cs 1 by omega, show ¬ 5 ≤ suitCnt cs 2 by omega,
        show ¬ 5 ≤ suitCnt cs 3 by omega, if_false]
      omega
    · have h1 := hu 0 (by omega) (by omega); have h2 := hu 2 (by omega) (by omega); have h3 := hu 3 (by omega) (by omega)
      rw [if_pos h5, if_pos h5]
      simp only [show ¬ 5 ≤ suitCnt cs 0 by omega, show ¬ 5 ≤ suitCnt cs 2 by omega,
        show ¬ 5 ≤ suitCnt cs 3 by omega, if_false]
      omega
    · have h1 := hu 0 (by omega) (by omega); have h2 := hu 1 (by omega) (by omega); have h3 := hu 3 (by omega) (by omega)
      rw [if_pos h5, if_pos h5]
      simp only [show ¬ 5 ≤ suitCnt cs 0 by omega, show ¬ 5 ≤ suitCnt cs 1 by omega,
        show ¬ 5 ≤ suitCnt cs 3 by omega, if_false]
      omega
    · have h1 := hu 0 (by omega) (by omega); have h2 := hu 1 (by omega) (by omega); have h3 := hu 2 (by omega) (by omega)
      rw [if_pos h5, if_pos h5]
      simp only [show ¬ 5 ≤ suitCnt cs 0 by omega, show ¬ 5 ≤ suitCnt cs 1 by omega,
        show ¬ 5 ≤ suitCnt cs 2 by omega, if_false]
      omega

theorem five_or_more {n k w : Nat} (hn : n ≤ 7) (hk : k ≤ n) :
    (if 5 ≤ k then w else 0) = (if k = 5 then w else 0) + (if k = 6 then w else 0) + (if k = 7 then w else 0) := by
  by_cases h5 : 5 ≤ k
  · rcases (show k = 5 ∨ k = 6 ∨ k = 7 by omega) with rfl | rfl | rfl <;> simp
  · rw [if_neg h5, if_neg (by omega), if_neg (by omega), if_neg (by omega)]

/-- The sum of the category digits over all hands of `n` cards. -/
theorem hist_total {n : Nat} (hn : n ≤ 7) {d0 d1 d2 d3 d4 d5 d6 d7 e5 e6 e7 : Nat}
    (hx : ∀ x ∈ [d0, d1, d2, d3, d4, d5, d6, d7], x < 2 ^ 512)
    (hp : sumPoly (Nat.shiftLeft 1 512) leafPlain rankKeys n 0 = digits512 [d0, d1, d2, d3, d4, d5, d6, d7])
    (h5 : ∀ s < 4, ((handsOf n).map (fun cs => if suitCnt cs s = 5 then hist (F cs s) else 0)).sum = e5)
    (h6 : ∀ s < 4, ((handsOf n).map (fun cs => if suitCnt cs s = 6 then hist (F cs s) else 0)).sum = e6)
    (h7 : ∀ s < 4, ((handsOf n).map (fun cs => if suitCnt cs s = 7 then hist (F cs s) else 0)).sum = e7) :
    ((handsOf n).map (fun cs => hist (ofCards cs).evaluate)).sum + 4 * (d5 + d6 + d7) =
      (d0 + d1 + d2 + d3 + d4 + d5 + d6 + d7) + 4 * (e5 + e6 + e7) := by
  have hd := fun s hs => plain_sum (s := s) hn hs rfl hx hp
  simp only [show List.range 8 = [0,1,2,3,4,5,6,7] from rfl, List.map_cons, List.map_nil, List.cons.injEq, and_true] at hd
  have hk : ∀ cs ∈ handsOf n, ∀ s, suitCnt cs s ≤ n := fun cs hcs s => (handsOf_cards hcs).2 ▸ suitCnt_le_length cs s
  have tot : ((handsOf n).map (fun cs => hist (L cs))).sum = d0 + d1 + d2 + d3 + d4 + d5 + d6 + d7 := by
    obtain ⟨a0, a1, a2, a3, a4, a5, a6, a7⟩ := hd 0 (by omega)
    rw [← a0, ← a1, ← a2, ← a3, ← a4, ← a5, ← a6, ← a7]
    simp only [← List.sum_map_add]
    congr 1
    refine List.map_congr_left fun cs hcs => ?_
    have := hk cs hcs 0
    generalize suitCnt cs 0 = k at this
    rcases (show k = 0 ∨ k = 1 ∨ k = 2 ∨ k = 3 ∨ k = 4 ∨ k = 5 ∨ k = 6 ∨ k = 7 by omega) with
      rfl | rfl | rfl | rfl | rfl | rfl | rfl | rfl <;> simp
  have fl : ∀ s < 4, ((handsOf n).map (fun cs => if 5 ≤ suitCnt cs s then hist (L cs) else 0)).sum = d5 + d6 + d7 := by
    intro s hs
    obtain ⟨_, _, _, _, _, a5, a6, a7⟩ := hd s hs
    rw [← a5, ← a6, ← a7]
    simp only [← List.sum_map_add]
    congr 1
    exact List.map_congr_left fun cs hcs => five_or_more hn (hk cs hcs s)
  have ff : ∀ s < 4, ((handsOf n).map (fun cs => if 5 ≤ suitCnt cs s then hist (F cs s) else 0)).sum = e5 + e6 + e7 := by
    intro s hs
    rw [← h5 s hs, ← h6 s hs, ← h7 s hs]
    simp only [← List.sum_map_add]
    congr 1
    exact List.map_congr_left fun cs hcs => five_or_more hn (hk cs hcs s)
  have key := congrArg List.sum (List.map_congr_left (l := handsOf n)
    (fun cs hcs => hist_evaluate (handsOf_cards hcs).1 ((handsOf_cards hcs).2 ▸ hn)))
  simp only [List.sum_map_add] at key
  rw [tot, fl 0 (by omega), fl 1 (by omega), fl 2 (by omega), fl 3 (by omega), ff 0 (by omega), ff 1 (by omega),
    ff 2 (by omega), ff 3 (by omega)] at key
  omega

theorem countP_sum {α : Type} (xs : List α) (q : α → Nat) (c : Nat) :
    (xs.map (fun x => if q x = c then 1 else 0)).sum = xs.countP (fun x => q x == c) := by
  induction xs with
  | nil => rfl
  | cons x xs ih =>
    rw [List.map_cons, List.sum_cons, ih, List.countP_cons]
    simp only [beq_iff_eq]
    omega

/-- The digits of the sum are the numbers of hands of the categories. -/
theorem counts_of_total {n : Nat} (h2 : 2 ≤ n) (h7 : n ≤ 7) {ks : List Nat} (hk : ks.length = 10) (hx : ∀ x ∈ ks, x < 2 ^ 32)
    (h : ((handsOf n).map (fun cs => hist (ofCards cs).evaluate)).sum = Nat.ofDigits (2 ^ 32) ks) :
    (List.range 10).map (fun c => (handsOf n).countP (fun cs => (ofCards cs).evaluate >>> 12 == c)) = ks := by
  have e : (handsOf n).map (fun cs => hist (ofCards cs).evaluate) =
      (handsOf n).map (fun cs => (2 ^ 32) ^ ((ofCards cs).evaluate >>> 12) * 1) :=
    List.map_congr_left fun cs _ => by rw [hist_eq, Nat.mul_one]
  rw [e, sum_by_class _ _ _ _ 10] at h
  · simp only [countP_sum] at h
    refine Nat.ofDigits_inj_of_len_eq (b := 2 ^ 32) (by norm_num) (by simp [hk]) ?_ hx h
    intro x hx
    obtain ⟨a, _, rfl⟩ := List.mem_map.1 hx
    refine List.countP_le_length.trans_lt ?_
    rw [handsOf_length]
    exact (choose_le h7).trans_lt (by norm_num)
  · intro cs hcs
    obtain ⟨hc, hl⟩ := handsOf_cards hcs
    have := (C02_category_range hc (by omega) (by omega)).2
    omega

theorem total_five : ((handsOf 5).map (fun cs => hist (ofCards cs).evaluate)).sum =
    Nat.ofDigits (2 ^ 32) [0, 1302540, 1098240, 123552, 54912, 10200, 5108, 3744, 624, 40] := by
  have := hist_total (n := 5) (by omega) (by decide +kernel) poly5 (fun s hs => suit_sum (b := 0) hs suit5)
    (fun s _ => suit_sum_zero (by omega)) (fun s _ => suit_sum_zero (by omega))
  refine Nat.add_right_cancel (this.trans ?_)
  decide +kernel

theorem total_six : ((handsOf 6).map (fun cs => hist (ofCards cs).evaluate)).sum =
    Nat.ofDigits (2 ^ 32) [0, 6612900, 9730740, 2532816, 732160, 361620, 205792, 165984, 14664, 1844] := by
  have := hist_total (n := 6) (by omega) (by decide +kernel) poly6 (fun s hs => suit_sum (b := 1) hs suit5)
    (fun s hs => suit_sum (b := 0) hs suit6) (fun s _ => suit_sum_zero (by omega))
  refine Nat.add_right_cancel (this.trans ?_)
  decide +kernel

theorem total_seven : ((handsOf 7).map (fun cs => hist (ofCards cs).evaluate)).sum =
    Nat.ofDigits (2 ^ 32) [0, 23294460, 58627800, 31433400, 6461620, 6180020, 4047644, 3473184, 224848, 41584] := by
  have := hist_total (n := 7) (by omega) (by decide +kernel) poly7 (fun s hs => suit_sum (b := 2) hs suit5)
    (fun s hs => suit_sum (b := 1) hs suit6) (fun s hs => suit_sum (b := 0) hs suit7)
  refine Nat.add_right_cancel (this.trans ?_)
  decide +kernel

end Pokers.Kernel
