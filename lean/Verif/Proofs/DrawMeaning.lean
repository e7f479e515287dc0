import Verif.Proofs.Draws
/-!
# What the draw flags mean
-/
namespace Pokers
open Spec

theorem HasRank.mono {xs cs : List Nat} (h : xs ⊆ cs) {r : Nat} (hr : HasRank xs r) : HasRank cs r :=
  let ⟨c, hc, he⟩ := hr
  ⟨c, h hc, he⟩

theorem HasStraight.mono {xs cs : List Nat} (h : xs ⊆ cs) {t : Nat} (ht : HasStraight xs t) : HasStraight cs t :=
  ⟨ht.1, ht.2.1, fun r hr => HasRank.mono h (ht.2.2 r hr)⟩

theorem countRank_pos {cs : List Nat} {r : Nat} : Nat.ble 1 (countRank cs r) = true ↔ HasRank cs r := by
  rw [Nat.ble_eq]
  unfold countRank HasRank
  rw [Nat.succ_le_iff, List.countP_pos_iff]
  simp only [Nat.beq_eq]

theorem straights_eq : straights = [12, 11, 10, 9, 8, 7, 6, 5, 4, 3].map fun t => (t, straightRanks t) := by decide

theorem straightTop_isSome {cs : List Nat} : (straightTop (countRank cs)).isSome = true ↔ ∃ t, HasStraight cs t := by
  unfold straightTop
  rw [Option.isSome_map, List.find?_isSome, straights_eq]
  constructor
  · rintro ⟨s, hs, h⟩
    obtain ⟨t, ht, rfl⟩ := List.mem_map.1 hs
    rw [List.all_eq_true] at h
    simp at ht
    exact ⟨t, by omega, by omega, fun r hr => countRank_pos.1 (h r hr)⟩
  · rintro ⟨t, h3, h12, h⟩
    refine ⟨_, List.mem_map.2 ⟨t, ?_, rfl⟩, ?_⟩
    · simp; omega
    · rw [List.all_eq_true]
      exact fun r hr => countRank_pos.2 (h r hr)

theorem straightRanks_nodup {t : Nat} (h3 : 3 ≤ t) (h12 : t ≤ 12) : (straightRanks t).Nodup ∧ (straightRanks t).length = 5 := by
  have : ∀ t ≤ 12, 3 ≤ t → (straightRanks t).Nodup ∧ (straightRanks t).length = 5 := by decide
  exact this t h12 h3

/-- Five cards forming the straight. -/
theorem straight_cards {cs : List Nat} (hn : cs.Nodup) {t : Nat} (h : HasStraight cs t) :
    ∃ x ∈ playable cs, HasStraight x t := by
  classical
  obtain ⟨h3, h12, hr⟩ := h
  choose! f hf hfr using hr
  have hnod := straightRanks_nodup h3 h12
  have hinj : ((straightRanks t).map f).Nodup := by
    apply List.Nodup.map_on _ hnod.1
    intro x hx y hy he
    rw [← hfr x hx, ← hfr y hy, he]
  have hp : (cs.filter fun c => decide (c ∈ (straightRanks t).map f)).Perm ((straightRanks t).map f) := by
    rw [List.perm_ext_iff_of_nodup (hn.filter _) hinj]
    intro c
    rw [List.mem_filter, decide_eq_true_iff]
    constructor
    · exact fun h => h.2
    · intro h
      refine ⟨?_, h⟩
      obtain ⟨r, hr, rfl⟩ := List.mem_map.1 h
      exact hf r hr
  refine ⟨cs.filter fun c => decide (c ∈ (straightRanks t).map f), ?_, h3, h12, ?_⟩
  · rw [mem_playable]
    refine ⟨List.filter_sublist, ?_⟩
    have hl := hp.length_eq
    rw [List.length_map, hnod.2] at hl
    have := (List.filter_sublist (p := fun c => decide (c ∈ (straightRanks t).map f)) (l := cs)).length_le
    omega
  · intro r hr
    exact ⟨f r, (hp.mem_iff).2 (List.mem_map.2 ⟨r, hr, rfl⟩), hfr r hr⟩

theorem category_straight {x : List Nat} (h : ∃ t, HasStraight x t) : 5 ≤ category x := by
  unfold category categoryOf
  rw [straightTop_isSome.2 h]
  simp only [Bool.true_and, if_true]
  split_ifs <;> omega

theorem category_five {x : List Nat} (h : category x = 5) : ∃ t, HasStraight x t := by
  rw [← straightTop_isSome]
  by_contra hc
  rw [Bool.not_eq_true] at hc
  unfold category categoryOf at h
  rw [hc] at h
  simp only [Bool.false_and, Bool.false_eq_true, if_false] at h
  split_ifs at h <;> omega

theorem value_head_le {x y : List Nat} (h : value y ≤ value x) : category y ≤ category x := by
  unfold value valueOf at h
  by_contra hc
  push Not at hc
  apply absurd h
  rw [not_le]
  exact List.Lex.rel hc

/-- The category the simulator computes and the straights among the cards. -/
theorem category_straights {cs : List Nat} (h : IsCards cs) (h2 : 2 ≤ cs.length) (h7 : cs.length ≤ 7) :
    (categoryOfScore (ofCards cs).evaluate < 4 → ∀ t, ¬ HasStraight cs t) ∧
    (categoryOfScore (ofCards cs).evaluate = 4 → ∃ t, HasStraight cs t) := by
  obtain ⟨⟨x, hx, hm⟩, hc⟩ := C02_category h h2 h7
  have hcat := hc x hx hm
  have he := (categoryOfScore_eq h h2 h7).1
  constructor
  · intro hk t ht
    obtain ⟨y, hy, hys⟩ := straight_cards h.1 ht
    have h1 := value_head_le (hm y hy)
    have h2 := category_straight ⟨t, hys⟩
    omega
  · intro hk
    obtain ⟨t, ht⟩ := category_five (x := x) (by omega)
    exact ⟨t, HasStraight.mono (mem_playable.1 hx).1.subset ht⟩

/-! ## Straight draws -/

theorem straightRanks_window {t : Nat} (h : 4 ≤ t) {cs : List Nat} :
    (∀ r ∈ straightRanks t, HasRank cs r) ↔ ∀ k < 5, HasRank cs (t - 4 + k) := by
  unfold straightRanks
  rw [if_neg (by omega)]
  constructor
  · intro hr k hk
    apply hr
    simp
    omega
  · intro hk r hr
    simp at hr
    rw [show r = t - 4 + (r - (t - 4)) by omega]
    exact hk _ (by omega)

/-- A straight other than A2345 is five consecutive ranks. -/
theorem no_window {cs : List Nat} (h : ∀ t, ¬ HasStraight cs t) {i : Nat} (hi : i ≤ 8) : ¬ ∀ k < 5, HasRank cs (i + k) := by
  intro hk
  refine h (i + 4) ⟨by omega, by omega, ?_⟩
  rw [straightRanks_window (by omega)]
  simpa using hk

theorem completes_of_four {cs : List Nat} (h : ∀ t, ¬ HasStraight cs t) {i m : Nat} (hi : i ≤ 8) (hm : m < 5)
    (hk : ∀ k < 5, k ≠ m → HasRank cs (i + k)) : Completes cs (i + m) := by
  refine ⟨by omega, fun hr => no_window h hi fun k h5 => ?_, i, hi, fun k h5 => ?_⟩
  · by_cases he : k = m
    · rw [he]; exact hr
    · exact hk k h5 he
  · by_cases he : k = m
    · right; omega
    · left; exact hk k h5 he

theorem draw_iff {cs : List Nat} (h13 : ∀ r, HasRank cs r → r < 13) (h : ∀ t, ¬ HasStraight cs t) :
    (OpenEnded cs ∨ Gutshot cs ∨ DoubleGutshot cs) ↔ ∃ r, Completes cs r := by
  constructor
  · have key : ∀ i m, m < 5 → i ≤ 8 → (∀ k < 5, k ≠ m → HasRank cs (i + k)) → ∃ r, Completes cs r :=
      fun i m hm hi hk => ⟨i + m, completes_of_four h hi hm hk⟩
    have five : ∀ i, ∀ ks : List Nat, 4 ∈ ks → HasRanks cs i ks → i ≤ 8 := by
      intro i ks h4 hr
      have := h13 _ (hr 4 h4)
      omega
    rintro (⟨i, h1, h8, hr⟩ | (hr | hr | ⟨i, hr⟩) | ⟨i, hr⟩)
    · refine key (i - 1) 0 (by omega) (by omega) fun k h5 h0 => ?_
      rw [show i - 1 + k = i + (k - 1) by omega]
      exact hr _ (by simp; omega)
    · exact key 0 4 (by omega) (by omega) fun k h5 h0 => hr k (by simp; omega)
    · refine key 8 0 (by omega) (by omega) fun k h5 h0 => ?_
      rw [show 8 + k = 9 + (k - 1) by omega]
      exact hr _ (by simp; omega)
    · rcases hr with hr | hr | hr
      · exact key i 3 (by omega) (five i _ (by simp) hr) fun k h5 h0 => hr k (by simp; omega)
      · exact key i 2 (by omega) (five i _ (by simp) hr) fun k h5 h0 => hr k (by simp; omega)
      · exact key i 1 (by omega) (five i _ (by simp) hr) fun k h5 h0 => hr k (by simp; omega)
    · rcases hr with hr | hr
      · exact key i 1 (by omega) (five i _ (by simp) hr) fun k h5 h0 => hr k (by simp; omega)
      · exact key i 2 (by omega) (five i _ (by simp) hr) fun k h5 h0 => hr k (by simp; omega)
  · rintro ⟨r, hr13, hnr, i, hi, hk⟩
    obtain ⟨m, hm, rfl⟩ : ∃ m < 5, r = i + m := by
      by_contra hc
      push Not at hc
      exact no_window h hi fun k h5 => (hk k h5).resolve_right fun he => hc k h5 he.symm
    have hk : ∀ k < 5, k ≠ m → HasRank cs (i + k) := fun k h5 hne => (hk k h5).resolve_right (by omega)
    rcases (show m = 0 ∨ m = 1 ∨ m = 2 ∨ m = 3 ∨ m = 4 by omega) with rfl | rfl | rfl | rfl | rfl
    · have hr : HasRanks cs (i + 1) [0, 1, 2, 3] := by
        intro k hk'
        simp at hk'
        rw [show i + 1 + k = i + (k + 1) by omega]
        exact hk _ (by omega) (by omega)
      by_cases h8 : i = 8
      · subst h8; exact Or.inr (Or.inl (Or.inr (Or.inl hr)))
      · exact Or.inl ⟨i + 1, by omega, by omega, hr⟩
    · exact Or.inr (Or.inl (Or.inr (Or.inr ⟨i, Or.inr (Or.inr fun k hk' => hk k (by simp at hk'; omega) (by simp at hk'; omega))⟩)))
    · exact Or.inr (Or.inl (Or.inr (Or.inr ⟨i, Or.inr (Or.inl fun k hk' => hk k (by simp at hk'; omega) (by simp at hk'; omega))⟩)))
    · exact Or.inr (Or.inl (Or.inr (Or.inr ⟨i, Or.inl fun k hk' => hk k (by simp at hk'; omega) (by simp at hk'; omega)⟩)))
    · have hr : HasRanks cs i [0, 1, 2, 3] := by
        intro k hk'
        simp at hk'
        exact hk _ (by omega) (by omega)
      by_cases h0 : i = 0
      · subst h0; exact Or.inr (Or.inl (Or.inl hr))
      · exact Or.inl ⟨i, by omega, hi, hr⟩

/-! ## Two completing ranks -/

theorem nbeq_false (a b : Nat) : Nat.beq a b = false ↔ a ≠ b := by
  rw [Bool.eq_false_iff, Ne, Nat.beq_eq]

/-- The ranks of the windows at `i` and `j` without `i + p` and `j + q`. -/
def twoWindows (i j p q k : Nat) : Bool :=
  (Nat.ble i k && Nat.blt k (i + 5) && !Nat.beq k (i + p)) || (Nat.ble j k && Nat.blt k (j + 5) && !Nat.beq k (j + q))

/-- Open-ended or double gutshot, as a check. -/
def twoSided (M : Nat → Bool) : Bool :=
  ((List.range 8).any fun a => (List.range 4).all fun k => M (a + 1 + k)) ||
  ((List.range 7).any fun a => [0, 2, 3, 4, 6].all fun k => M (a + k)) ||
  ((List.range 6).any fun a => [0, 1, 3, 4, 6, 7].all fun k => M (a + k))

theorem two_table : ((List.range 9).all fun i => (List.range 9).all fun j => (List.range 5).all fun p => (List.range 5).all fun q =>
    Nat.beq (i + p) (j + q) || twoWindows i j p q (i + p) || twoWindows i j p q (j + q) ||
      !Nat.ble ((List.range 13).countP (twoWindows i j p q)) 6 || twoSided (twoWindows i j p q)) = true := by
  decide +kernel

theorem countP_rank_le (cs : List Nat) : (List.range 13).countP (fun r => decide (HasRank cs r)) ≤ cs.length := by
  rw [List.countP_eq_length_filter]
  have hsub : (List.range 13).filter (fun r => decide (HasRank cs r)) ⊆ cs.map Spec.rank := by
    intro r hr
    obtain ⟨c, hc, rfl⟩ := of_decide_eq_true (List.mem_filter.1 hr).2
    exact List.mem_map.2 ⟨c, hc, rfl⟩
  have := (List.Nodup.subperm (List.nodup_range.filter _) hsub).length_le
  rwa [List.length_map] at this

theorem completes_window {cs : List Nat} (h : ∀ t, ¬ HasStraight cs t) {r : Nat} (hc : Completes cs r) :
    ∃ i < 9, ∃ m < 5, r = i + m ∧ ¬ HasRank cs r ∧ ∀ k < 5, k ≠ m → HasRank cs (i + k) := by
  obtain ⟨hr13, hnr, i, hi, hk⟩ := hc
  obtain ⟨m, hm, rfl⟩ : ∃ m < 5, r = i + m := by
    by_contra hc
    push Not at hc
    exact no_window h hi fun k h5 => (hk k h5).resolve_right fun he => hc k h5 he.symm
  exact ⟨i, by omega, m, hm, rfl, hnr, fun k h5 hne => (hk k h5).resolve_right (by omega)⟩

theorem two_sided_iff {cs : List Nat} (h13 : ∀ r, HasRank cs r → r < 13) (h6 : cs.length ≤ 6) (h : ∀ t, ¬ HasStraight cs t) :
    (OpenEnded cs ∨ DoubleGutshot cs) ↔ ∃ r q, r ≠ q ∧ Completes cs r ∧ Completes cs q := by
  constructor
  · rintro (⟨i, h1, h8, hr⟩ | ⟨i, hr | hr⟩)
    · refine ⟨i - 1 + 0, i + 4, by omega, completes_of_four h (by omega) (by omega) fun k h5 h0 => ?_,
        completes_of_four h (by omega) (by omega) fun k h5 h0 => hr k (by simp; omega)⟩
      rw [show i - 1 + k = i + (k - 1) by omega]
      exact hr _ (by simp; omega)
    · have := h13 _ (hr 6 (by simp))
      refine ⟨i + 1, i + 2 + 3, by omega, completes_of_four h (by omega) (by omega) fun k h5 h0 => hr k (by simp; omega),
        completes_of_four h (by omega) (by omega) fun k h5 h0 => ?_⟩
      rw [show i + 2 + k = i + (k + 2) by omega]
      exact hr _ (by simp; omega)
    · have := h13 _ (hr 7 (by simp))
      refine ⟨i + 2, i + 3 + 2, by omega, completes_of_four h (by omega) (by omega) fun k h5 h0 => hr k (by simp; omega),
        completes_of_four h (by omega) (by omega) fun k h5 h0 => ?_⟩
      rw [show i + 3 + k = i + (k + 3) by omega]
      exact hr _ (by simp; omega)
  · rintro ⟨r, q, hne, hr, hq⟩
    obtain ⟨i, hi, m, hm, rfl, hnr, hkr⟩ := completes_window h hr
    obtain ⟨j, hj, l, hl, rfl, hnq, hkq⟩ := completes_window h hq
    have hM : ∀ k, twoWindows i j m l k = true → HasRank cs k := by
      intro k hk
      unfold twoWindows at hk
      simp only [Bool.or_eq_true, Bool.and_eq_true, Nat.ble_eq, Nat.blt_eq, Bool.not_eq_true', nbeq_false] at hk
      rcases hk with ⟨⟨h1, h2⟩, h3⟩ | ⟨⟨h1, h2⟩, h3⟩
      · rw [show k = i + (k - i) by omega]
        exact hkr _ (by omega) (by omega)
      · rw [show k = j + (k - j) by omega]
        exact hkq _ (by omega) (by omega)
    have ht := two_table
    simp only [List.all_eq_true, List.mem_range] at ht
    have ht := ht i hi j hj m hm l hl
    have e1 : Nat.beq (i + m) (j + l) = false := by rw [nbeq_false]; exact hne
    have e2 : twoWindows i j m l (i + m) = false := by rw [Bool.eq_false_iff]; exact fun hc => hnr (hM _ hc)
    have e3 : twoWindows i j m l (j + l) = false := by rw [Bool.eq_false_iff]; exact fun hc => hnq (hM _ hc)
    have e4 : Nat.ble ((List.range 13).countP (twoWindows i j m l)) 6 = true := by
      rw [Nat.ble_eq]
      refine le_trans ?_ ((countP_rank_le cs).trans h6)
      apply List.countP_mono_left
      intro k _ hk
      rw [decide_eq_true_iff]
      exact hM k hk
    rw [e1, e2, e3, e4] at ht
    simp only [Bool.false_or, Bool.not_true] at ht
    unfold twoSided at ht
    simp only [Bool.or_eq_true, List.any_eq_true, List.all_eq_true, List.mem_range] at ht
    rcases ht with (⟨a, ha, hall⟩ | ⟨a, ha, hall⟩) | ⟨a, ha, hall⟩
    · left
      refine ⟨a + 1, by omega, by omega, fun k hk => hM _ (hall k ?_)⟩
      simp at hk
      omega
    · right
      exact ⟨a, Or.inl fun k hk => hM _ (hall k hk)⟩
    · right
      exact ⟨a, Or.inr fun k hk => hM _ (hall k hk)⟩

/-! ## Backdoor straight draws -/

theorem ranksIn_mono {cs : List Nat} {lo hi lo' hi' : Nat} (h : ∀ r < 13, lo ≤ r → r < hi → lo' ≤ r ∧ r < hi') :
    ranksIn cs lo hi ≤ ranksIn cs lo' hi' := by
  unfold ranksIn
  apply List.countP_mono_left
  intro r hr hc
  rw [decide_eq_true_iff] at hc ⊢
  exact ⟨(h r (List.mem_range.1 hr) hc.1 hc.2.1).1, (h r (List.mem_range.1 hr) hc.1 hc.2.1).2, hc.2.2⟩

theorem ranksIn_eq (cs : List Nat) {i : Nat} (hi : i ≤ 8) : ranksIn cs i (i + 5) = (List.range 5).countP fun k => decide (HasRank cs (i + k)) := by
  unfold ranksIn
  have e : List.range 13 = List.range' 0 i ++ ((List.range 5).map (i + ·) ++ List.range' (i + 5) (8 - i)) := by
    have : ∀ i ≤ 8, List.range 13 = List.range' 0 i ++ ((List.range 5).map (i + ·) ++ List.range' (i + 5) (8 - i)) := by decide
    exact this i hi
  rw [e, List.countP_append, List.countP_append, List.countP_map]
  have z1 : (List.range' 0 i).countP (fun r => decide (i ≤ r ∧ r < i + 5 ∧ HasRank cs r)) = 0 := by
    rw [List.countP_eq_zero]
    intro r hr
    rw [List.mem_range'_1] at hr
    simp
    omega
  have z2 : (List.range' (i + 5) (8 - i)).countP (fun r => decide (i ≤ r ∧ r < i + 5 ∧ HasRank cs r)) = 0 := by
    rw [List.countP_eq_zero]
    intro r hr
    rw [List.mem_range'_1] at hr
    simp
    omega
  rw [z1, z2, Nat.zero_add, Nat.add_zero]
  apply List.countP_congr
  intro k hk
  rw [List.mem_range] at hk
  simp
  omega

theorem four_of_five (P : Nat → Bool) (h : 4 ≤ (List.range 5).countP P) : ∃ m < 5, ∀ k < 5, k ≠ m → P k = true := by
  rw [show List.range 5 = [0, 1, 2, 3, 4] by decide] at h
  simp only [List.countP_cons, List.countP_nil] at h
  by_cases h0 : P 0 = true <;> by_cases h1 : P 1 = true <;> by_cases h2 : P 2 = true <;> by_cases h3 : P 3 = true <;>
    by_cases h4 : P 4 = true <;> simp only [h0, h1, h2, h3, h4, if_true, if_false, Bool.false_eq_true] at h <;>
    first
    | omega
    | (refine ⟨if P 0 = false then 0 else if P 1 = false then 1 else if P 2 = false then 2 else if P 3 = false then 3 else 4,
          by split_ifs <;> omega, fun k hk => ?_⟩
       rcases (show k = 0 ∨ k = 1 ∨ k = 2 ∨ k = 3 ∨ k = 4 by omega) with rfl | rfl | rfl | rfl | rfl <;> simp_all)

/-- Without a card that completes a straight, the backdoor flag says that two cards can complete one (not A2345). -/
theorem backdoor_iff {cs : List Nat} (h : ∀ t, ¬ HasStraight cs t) (hn : ∀ r, ¬ Completes cs r) :
    BackdoorStraight cs ↔ ∃ i ≤ 8, 3 ≤ ranksIn cs i (i + 5) := by
  have h4 : ∀ i ≤ 8, ranksIn cs i (i + 5) ≤ 3 := by
    intro i hi
    by_contra hc
    rw [ranksIn_eq cs hi] at hc
    obtain ⟨m, hm, hk⟩ := four_of_five _ (Nat.lt_of_not_le hc)
    exact hn _ (completes_of_four h hi hm fun k h5 hne => of_decide_eq_true (hk k h5 hne))
  constructor
  · rintro ⟨i, hi, h3, _⟩
    by_cases h9 : i = 9
    · subst h9
      exact ⟨8, le_refl _, h3 ▸ ranksIn_mono (fun r _ h1 h2 => by omega)⟩
    · exact ⟨i, by omega, h3.ge⟩
  · rintro ⟨i, hi, h3⟩
    refine ⟨i, by omega, le_antisymm (h4 i hi) h3, ?_, ?_⟩
    · by_cases h8 : i = 8
      · subst h8
        exact le_trans (ranksIn_mono (fun r _ h1 h2 => by omega)) (h4 8 (le_refl _))
      · exact h4 (i + 1) (by omega)
    · by_cases h0 : i = 0
      · subst h0
        exact le_trans (ranksIn_mono (fun r _ h1 h2 => by omega)) (h4 0 (by omega))
      · have := h4 (i - 1) (by omega)
        rwa [show i - 1 + 5 = i + 4 by omega] at this

/-- Whenever the flag is set, two cards can complete a straight. -/
theorem backdoor_sound {cs : List Nat} (h : BackdoorStraight cs) : ∃ i ≤ 8, 3 ≤ ranksIn cs i (i + 5) := by
  obtain ⟨i, hi, h3, _⟩ := h
  by_cases h9 : i = 9
  · subst h9
    exact ⟨8, le_refl _, h3 ▸ ranksIn_mono (fun r _ h1 h2 => by omega)⟩
  · exact ⟨i, by omega, h3.ge⟩

/-! ## The best straight -/

theorem countP_or_le {α : Type} (p q : α → Bool) (l : List α) : l.countP (fun a => p a || q a) ≤ l.countP p + l.countP q := by
  induction l with
  | nil => simp
  | cons a l ih =>
    simp only [List.countP_cons]
    cases p a <;> cases q a <;> simp <;> omega

theorem countP_eq_le_one {l : List Nat} (hn : l.Nodup) (x : Nat) : l.countP (fun r => decide (r = x)) ≤ 1 := by
  have := List.nodup_iff_count_le_one.1 hn x
  rw [List.count] at this
  refine le_trans (le_of_eq ?_) this
  apply List.countP_congr
  intro r _
  simp

/-- Two hole cards add at most two ranks. -/
theorem ranksIn_hole (board : List Nat) (a b lo hi : Nat) : ranksIn (board ++ [a, b]) lo hi ≤ ranksIn board lo hi + 2 := by
  unfold ranksIn
  refine le_trans (List.countP_mono_left (q := fun r => decide (lo ≤ r ∧ r < hi ∧ HasRank board r) ||
    (decide (r = Spec.rank a) || decide (r = Spec.rank b))) ?_) ?_
  · intro r _ h
    rw [decide_eq_true_iff] at h
    obtain ⟨h1, h2, c, hc, hr⟩ := h
    simp only [Bool.or_eq_true, decide_eq_true_eq]
    rw [List.mem_append] at hc
    rcases hc with hc | hc
    · exact Or.inl ⟨h1, h2, c, hc, hr⟩
    · simp at hc
      rcases hc with rfl | rfl
      · exact Or.inr (Or.inl hr.symm)
      · exact Or.inr (Or.inr hr.symm)
  · refine le_trans (countP_or_le _ _ _) ?_
    have := countP_or_le (fun r => decide (r = Spec.rank a)) (fun r => decide (r = Spec.rank b)) (List.range 13)
    have h1 := countP_eq_le_one (List.nodup_range (n := 13)) (Spec.rank a)
    have h2 := countP_eq_le_one (List.nodup_range (n := 13)) (Spec.rank b)
    omega

theorem ranksIn_straight {cs : List Nat} {t : Nat} (h4 : 4 ≤ t) (h : HasStraight cs t) : ranksIn cs (t - 4) (t + 1) = 5 := by
  have hr := (straightRanks_window h4).1 h.2.2
  have := ranksIn_eq cs (i := t - 4) (by have := h.2.1; omega)
  rw [show t - 4 + 5 = t + 1 by omega] at this
  rw [this]
  refine Eq.trans (List.countP_eq_length.2 ?_) (List.length_range (n := 5))
  intro k hk
  rw [List.mem_range] at hk
  rw [decide_eq_true_iff]
  exact hr k hk

theorem nutStraight_iff {board : List Nat} {a b : Nat} (h : ∃ t, HasStraight (board ++ [a, b]) t) :
    NutStraight board (board ++ [a, b]) ↔ ∃ t, HasStraight (board ++ [a, b]) t ∧
      (∀ t', t < t' → t' ≤ 12 → ranksIn board (t' - 4) (t' + 1) < 3) ∧ (t = 3 → 3 ≤ ranksIn board 0 4) := by
  have hboard : ∀ t, 4 ≤ t → HasStraight (board ++ [a, b]) t → 3 ≤ ranksIn board (t - 4) (t + 1) := by
    intro t h4 ht
    have h5 := ranksIn_straight h4 ht
    have := ranksIn_hole board a b (t - 4) (t + 1)
    omega
  unfold NutStraight nutWindow
  simp only
  constructor
  · rintro ⟨j, hj, hlow, h3, hall⟩
    by_cases h9 : j = 9
    · subst h9
      obtain ⟨t, ht⟩ := h
      have ht3 : t = 3 := by
        by_contra hne
        have := hboard t (by have := ht.1; omega) ht
        have h12 := ht.2.1
        have h3 := ht.1
        have := hlow (12 - t) (by omega)
        rw [show 8 - (12 - t) = t - 4 by omega, show 13 - (12 - t) = t + 1 by omega] at this
        omega
      subst ht3
      refine ⟨3, ht, fun t' h1 h2 => ?_, fun _ => h3⟩
      have := hlow (12 - t') (by omega)
      rwa [show 8 - (12 - t') = t' - 4 by omega, show 13 - (12 - t') = t' + 1 by omega] at this
    · refine ⟨12 - j, ⟨by omega, by omega, ?_⟩, fun t' h1 h2 => ?_, fun h => by omega⟩
      · rw [straightRanks_window (by omega)]
        exact fun k hk => hall _ (by omega) (by omega)
      · have := hlow (12 - t') (by omega)
        rwa [show 8 - (12 - t') = t' - 4 by omega, show 13 - (12 - t') = t' + 1 by omega] at this
  · rintro ⟨t, ht, hhigh, hw⟩
    have h12 := ht.2.1
    have h3 := ht.1
    by_cases he : t = 3
    · subst he
      refine ⟨9, le_refl _, fun i hi => ?_, hw rfl, fun r _ hr => ?_⟩
      · have := hhigh (12 - i) (by omega) (by omega)
        rwa [show 12 - i - 4 = 8 - i by omega, show 12 - i + 1 = 13 - i by omega] at this
      · exact ht.2.2 r (by unfold straightRanks; simp; omega)
    · refine ⟨12 - t, by omega, fun i hi => ?_, ?_, fun r h1 h2 => ?_⟩
      · have := hhigh (12 - i) (by omega) (by omega)
        rwa [show 12 - i - 4 = 8 - i by omega, show 12 - i + 1 = 13 - i by omega] at this
      · have := hboard t (by omega) ht
        rwa [show 8 - (12 - t) = t - 4 by omega, show 13 - (12 - t) = t + 1 by omega]
      · have := (straightRanks_window (by omega : 4 ≤ t)).1 ht.2.2 (r - (t - 4)) (by omega)
        rwa [show t - 4 + (r - (t - 4)) = r by omega] at this

theorem length_filter_le_two {l : List Nat} (h : l.length ≤ 2) : l = [] ∨ (∃ x, l = [x]) ∨ ∃ x y, l = [x, y] := by
  match l, h with
  | [], _ => exact Or.inl rfl
  | [x], _ => exact Or.inr (Or.inl ⟨x, rfl⟩)
  | [x, y], _ => exact Or.inr (Or.inr ⟨x, y, rfl⟩)
  | _ :: _ :: _ :: _, h => simp at h

/-- Two cards of the deck can complete the straight with top rank `t ≥ 4` exactly when three of its ranks are on the board. -/
theorem can_make {board : List Nat} (hb : IsCards board) (h5 : board.length < 5) {t : Nat} (h4 : 4 ≤ t) (h12 : t ≤ 12) :
    3 ≤ ranksIn board (t - 4) (t + 1) ↔ ∃ x y, IsCards (board ++ [x, y]) ∧ HasStraight (board ++ [x, y]) t := by
  constructor
  · intro h
    have free : ∀ r < 13, ¬ HasRank board r → ∀ s < 4, 4 * r + s ∉ board := by
      intro r _ hr s hs hc
      exact hr ⟨_, hc, by unfold Spec.rank; omega⟩
    have mk : ∀ x y, x < 52 → y < 52 → x ≠ y → x ∉ board → y ∉ board →
        (∀ k < 5, HasRank board (t - 4 + k) ∨ Spec.rank x = t - 4 + k ∨ Spec.rank y = t - 4 + k) →
        ∃ x y, IsCards (board ++ [x, y]) ∧ HasStraight (board ++ [x, y]) t := by
      intro x y hx hy hne hxb hyb hk
      refine ⟨x, y, ⟨?_, ?_⟩, by omega, h12, ?_⟩
      · rw [List.nodup_append]
        refine ⟨hb.1, by simp [hne], fun u hu v hv he => ?_⟩
        subst he
        simp at hv
        rcases hv with rfl | rfl
        · exact hxb hu
        · exact hyb hu
      · intro c hc
        rw [List.mem_append] at hc
        rcases hc with hc | hc
        · exact hb.2 c hc
        · simp at hc
          omega
      · rw [straightRanks_window h4]
        intro k hk5
        rcases hk k hk5 with h | h | h
        · exact HasRank.mono (by simp) h
        · exact ⟨x, by simp, h⟩
        · exact ⟨y, by simp, h⟩
    have e := ranksIn_eq board (i := t - 4) (by omega)
    rw [show t - 4 + 5 = t + 1 by omega] at e
    rw [e] at h
    have hlen : ((List.range 5).filter fun k => !decide (HasRank board (t - 4 + k))).length ≤ 2 := by
      have := List.length_eq_countP_add_countP (fun k => decide (HasRank board (t - 4 + k))) (l := List.range 5)
      rw [← List.countP_eq_length_filter]
      have e2 : (List.range 5).countP (fun k => !decide (HasRank board (t - 4 + k))) =
          (List.range 5).countP (fun k => decide ¬ (decide (HasRank board (t - 4 + k)) = true)) := by
        apply List.countP_congr
        intro k _
        simp
      rw [List.length_range] at this
      omega
    have hmem : ∀ k, k ∈ ((List.range 5).filter fun k => !decide (HasRank board (t - 4 + k))) ↔ k < 5 ∧ ¬ HasRank board (t - 4 + k) := by
      intro k
      rw [List.mem_filter, List.mem_range]
      simp
    rcases length_filter_le_two hlen with hl | ⟨x, hl⟩ | ⟨x, y, hl⟩
    · obtain ⟨r, hr, hnr⟩ : ∃ r < 13, ¬ HasRank board r := by
        by_contra hc
        push Not at hc
        have h1 := countP_rank_le board
        have h2 : (List.range 13).countP (fun r => decide (HasRank board r)) = 13 := by
          refine Eq.trans (List.countP_eq_length.2 ?_) (List.length_range (n := 13))
          intro r hr
          rw [List.mem_range] at hr
          rw [decide_eq_true_iff]
          exact hc r hr
        omega
      refine mk (4 * r + 0) (4 * r + 1) (by omega) (by omega) (by omega) (free r hr hnr 0 (by omega)) (free r hr hnr 1 (by omega))
        fun k hk => Or.inl ?_
      by_contra hc
      have := (hmem k).2 ⟨hk, hc⟩
      rw [hl] at this
      simp at this
    · have hx := (hmem x).1 (by rw [hl]; simp)
      refine mk (4 * (t - 4 + x) + 0) (4 * (t - 4 + x) + 1) (by omega) (by omega) (by omega) (free _ (by omega) hx.2 0 (by omega))
        (free _ (by omega) hx.2 1 (by omega)) fun k hk => ?_
      by_cases hc : HasRank board (t - 4 + k)
      · exact Or.inl hc
      · have := (hmem k).2 ⟨hk, hc⟩
        rw [hl] at this
        simp at this
        subst this
        exact Or.inr (Or.inl (by unfold Spec.rank; omega))
    · have hx := (hmem x).1 (by rw [hl]; simp)
      have hy := (hmem y).1 (by rw [hl]; simp)
      have hne : x ≠ y := by
        have hn : ((List.range 5).filter fun k => !decide (HasRank board (t - 4 + k))).Nodup := List.nodup_range.filter _
        rw [hl] at hn
        simpa using hn
      refine mk (4 * (t - 4 + x) + 0) (4 * (t - 4 + y) + 0) (by omega) (by omega) (by omega) (free _ (by omega) hx.2 0 (by omega))
        (free _ (by omega) hy.2 0 (by omega)) fun k hk => ?_
      by_cases hc : HasRank board (t - 4 + k)
      · exact Or.inl hc
      · have := (hmem k).2 ⟨hk, hc⟩
        rw [hl] at this
        simp at this
        rcases this with rfl | rfl
        · exact Or.inr (Or.inl (by unfold Spec.rank; omega))
        · exact Or.inr (Or.inr (by unfold Spec.rank; omega))
  · rintro ⟨x, y, _, hs⟩
    have h5 := ranksIn_straight h4 hs
    have := ranksIn_hole board x y (t - 4) (t + 1)
    omega

end Pokers
