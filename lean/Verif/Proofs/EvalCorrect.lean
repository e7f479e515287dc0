import Verif.Proofs.TableFacts
/-!
The evaluator's score determines, and is determined by, the strength of the best playable hand.
-/
namespace Pokers
open Spec Kernel

theorem IsCards.erase {cs : List Nat} (h : IsCards cs) (c : Nat) : IsCards (cs.erase c) :=
  ⟨h.1.erase c, fun x hx => h.2 x (List.mem_of_mem_erase hx)⟩

theorem IsCards.sublist {xs cs : List Nat} (h : IsCards cs) (hs : xs.Sublist cs) : IsCards xs :=
  ⟨h.1.sublist hs, fun x hx => h.2 x (hs.subset hx)⟩

theorem suitCnt_le13 {cs : List Nat} (h : IsCards cs) (s : Nat) (hs : s < 4) : suitCnt cs s ≤ 13 := by
  rw [← suitBits_sum h hs]
  have hle : ∀ l : List Nat, (∀ c ∈ l, c ≤ 1) → l.sum ≤ l.length := by
    intro l
    induction l with
    | nil => simp
    | cons a l ih =>
      intro h
      have h1 := h a List.mem_cons_self
      have h2 := ih (fun x hx => h x (List.mem_cons_of_mem _ hx))
      simp only [List.sum_cons, List.length_cons]; omega
  have := hle (suitBits cs s) (fun c hc => suitBits_le cs s c (List.mem_reverse.2 hc))
  simpa [suitBits] using this

theorem suits_le12 {cs : List Nat} (hl : cs.length ≤ 12) : ∀ s < 4, suitCnt cs s ≤ 12 :=
  fun s _ => (suitCnt_le_length cs s).trans hl

theorem evaluateWithoutFlush_eq {cs : List Nat} (h : ∀ c ∈ cs, c < 52) (hs : ∀ s < 4, suitCnt cs s ≤ 12) :
    (ofCards cs).evaluateWithoutFlush = L cs := by
  unfold Hand.evaluateWithoutFlush L
  rw [fastLookup_eq, getRankKey_ofCards h hs]
  rfl

theorem evaluate_noflush {cs : List Nat} (h : ∀ c ∈ cs, c < 52) (hs : ∀ s < 4, suitCnt cs s ≤ 4) :
    (ofCards cs).evaluate = L cs := by
  have hs' : ∀ s < 4, suitCnt cs s ≤ 12 := fun s h => (hs s h).trans (by omega)
  have : (ofCards cs).hasFlush = false := by
    rw [← Bool.not_eq_true, hasFlush_ofCards h hs']
    rintro ⟨s, h4, h5⟩
    have := hs s h4
    omega
  rw [← evaluateWithoutFlush_eq h hs', Hand.evaluate, this]
  rfl

theorem getSuitMask_eq {cs : List Nat} (h : IsCards cs) {s : Nat} (hs : s < 4) :
    (ofCards cs).getSuitMask s = suitMask cs s := by
  have hlt : (ofCards cs).getSuitMask s < 2 ^ 13 := by
    apply Nat.lt_pow_two_of_testBit
    intro i hi
    rw [getSuitMask_testBit h.2 hs, decide_eq_false_iff_not]
    intro hm; have := h.2 _ hm; omega
  have hb : ∀ r, (ofCards cs).getSuitMask s / 2 ^ r % 2 = if 4 * r + s ∈ cs then 1 else 0 := by
    intro r
    have := getSuitMask_testBit h.2 hs (r := r)
    rw [Nat.testBit_eq_decide_div_mod_eq, decide_eq_decide] at this
    by_cases hm : 4 * r + s ∈ cs
    · rw [if_pos hm]; exact this.2 hm
    · rw [if_neg hm]
      have := mt this.1 hm
      omega
  simp only [suitMask, suitBits, show List.range 13 = [0,1,2,3,4,5,6,7,8,9,10,11,12] from rfl, List.map_cons, List.map_nil, ← hb]
  generalize (ofCards cs).getSuitMask s = m at hlt
  simp only [dot, bitsUp]
  omega

theorem flush_unique {cs : List Nat} (hl : cs.length ≤ 9) {s t : Nat} (hs : s < 4) (ht : t < 4) (h5 : 5 ≤ suitCnt cs s)
    (hst : s ≠ t) : suitCnt cs t < 5 := by
  have := length_eq_suits cs
  rcases (show s = 0 ∨ s = 1 ∨ s = 2 ∨ s = 3 by omega) with rfl | rfl | rfl | rfl <;>
    rcases (show t = 0 ∨ t = 1 ∨ t = 2 ∨ t = 3 by omega) with rfl | rfl | rfl | rfl <;> omega

theorem evaluate_flush {cs : List Nat} (h : IsCards cs) (hl : cs.length ≤ 9) {s : Nat} (hs : s < 4)
    (h5 : 5 ≤ suitCnt cs s) : (ofCards cs).evaluate = F cs s := by
  have hs' := suits_le12 (cs := cs) (by omega)
  unfold Hand.evaluate F
  rw [if_pos ((hasFlush_ofCards h.2 hs').2 ⟨s, hs, h5⟩),
    getFlushKey_ofCards h.2 hs' hs h5 (fun t ht hst => flush_unique hl hs ht h5 (by omega)), getSuitMask_eq h hs,
    fastFlush_eq]

theorem suitCnt_erase {cs : List Nat} {c : Nat} (hc : c ∈ cs) (s : Nat) :
    suitCnt cs s = suitCnt (cs.erase c) s + if c % 4 = s then 1 else 0 := by
  rw [← suitCnt_cons]
  exact (List.perm_cons_erase hc).countP_eq _

theorem flush_cases (cs : List Nat) : (∀ s < 4, suitCnt cs s ≤ 4) ∨ ∃ s < 4, 5 ≤ suitCnt cs s := by
  by_cases h : ∃ s < 4, 5 ≤ suitCnt cs s
  · exact Or.inr h
  · refine Or.inl fun s hs => ?_
    by_contra hc
    exact h ⟨s, hs, by omega⟩

/-- Breaking a five-card flush. -/
theorem break_flush {cs : List Nat} (h : IsCards cs) (hl : cs.length ≤ 7) {s c : Nat} (hs : s < 4)
    (h5 : suitCnt cs s = 5) (hc : c ∈ cs) (hcs : c % 4 = s) : (ofCards (cs.erase c)).evaluate < 24576 := by
  have he : suitCnt (cs.erase c) s = 4 := by
    have := suitCnt_erase hc s
    rw [if_pos hcs] at this
    omega
  have hle : (cs.erase c).length = cs.length - 1 := List.length_erase_of_mem hc
  have hno : ∀ t < 4, suitCnt (cs.erase c) t ≤ 4 := by
    intro t ht
    by_cases hst : s = t
    · rw [← hst, he]
    · have := flush_unique (by omega) hs ht (by omega : 5 ≤ suitCnt cs s) hst
      have := suitCnt_erase hc t
      omega
  rw [evaluate_noflush (IsCards.erase h c).2 hno]
  exact L_noFlush (IsCards.erase h c) (by omega) (by omega : 4 ≤ suitCnt (cs.erase c) s)

/-- Leaving out a card never raises the score (three to seven cards). -/
theorem evaluate_erase_le {cs : List Nat} (h : IsCards cs) (h3 : 3 ≤ cs.length) (hl : cs.length ≤ 7) {c : Nat}
    (hc : c ∈ cs) : (ofCards (cs.erase c)).evaluate ≤ (ofCards cs).evaluate := by
  rcases flush_cases cs with hno | ⟨s, hs, h5⟩
  · have hno' : ∀ t < 4, suitCnt (cs.erase c) t ≤ 4 := fun t ht => by
      have := hno t ht; have := suitCnt_erase hc t; omega
    rw [evaluate_noflush h.2 hno, evaluate_noflush (IsCards.erase h c).2 hno']
    by_cases h6 : cs.length ≤ 5
    · exact L_mono h h3 h6 c hc
    · exact (L_big h (by omega)).1 c hc
  · rw [evaluate_flush h (by omega) hs h5]
    have hle : (cs.erase c).length = cs.length - 1 := List.length_erase_of_mem hc
    have hE := suitCnt_erase hc s
    by_cases hcs : c % 4 = s
    · rw [if_pos hcs] at hE
      rcases Nat.lt_or_ge 5 (suitCnt cs s) with h6 | h6
      · rw [evaluate_flush (IsCards.erase h c) (by omega) hs (by omega)]
        exact (F_big h hs h6 ((suitCnt_le_length cs s).trans hl)).2.1 c hc hcs
      · have h5' : suitCnt cs s = 5 := by omega
        exact (break_flush h hl hs h5' hc hcs).le.trans (F_code h hs h5').2.1
    · rw [if_neg hcs] at hE
      rw [evaluate_flush (IsCards.erase h c) (by omega) hs (by omega), F, F, suitMask_erase_other h hs hcs]

/-- Some card can be left out of six or seven cards without changing the score. -/
theorem evaluate_erase_eq {cs : List Nat} (h : IsCards cs) (h6 : 6 ≤ cs.length) (hl : cs.length ≤ 7) :
    ∃ c ∈ cs, (ofCards (cs.erase c)).evaluate = (ofCards cs).evaluate := by
  rcases flush_cases cs with hno | ⟨s, hs, h5⟩
  · obtain ⟨c, hc, he⟩ := (L_big h (by omega)).2
    have hno' : ∀ t < 4, suitCnt (cs.erase c) t ≤ 4 := fun t ht => by
      have := hno t ht; have := suitCnt_erase hc t; omega
    exact ⟨c, hc, by rw [evaluate_noflush h.2 hno, evaluate_noflush (IsCards.erase h c).2 hno', he]⟩
  · by_cases hex : ∃ c ∈ cs, c % 4 ≠ s
    · obtain ⟨c, hc, hcs⟩ := hex
      have hle : (cs.erase c).length = cs.length - 1 := List.length_erase_of_mem hc
      have hE := suitCnt_erase hc s
      rw [if_neg hcs] at hE
      refine ⟨c, hc, ?_⟩
      rw [evaluate_flush h (by omega) hs h5, evaluate_flush (IsCards.erase h c) (by omega) hs (by omega), F, F,
        suitMask_erase_other h hs hcs]
    · have hall : ∀ c ∈ cs, c % 4 = s := by
        intro c hc
        by_contra hcs
        exact hex ⟨c, hc, hcs⟩
      have hcnt : suitCnt cs s = cs.length := by
        unfold suitCnt
        rw [List.countP_eq_length]
        intro c hc
        simpa [Spec.suit] using hall c hc
      obtain ⟨c, hc, hcs, he⟩ := (F_big h hs (by omega) (by omega)).2.2
      have hle : (cs.erase c).length = cs.length - 1 := List.length_erase_of_mem hc
      have hE := suitCnt_erase hc s
      rw [if_pos hcs] at hE
      refine ⟨c, hc, ?_⟩
      rw [evaluate_flush h (by omega) hs h5, evaluate_flush (IsCards.erase h c) (by omega) hs (by omega), he]

/-! Strengths of at most five cards. -/

theorem isFlush_iff (cs : List Nat) (hl : cs.length ≤ 5) : isFlush cs = true ↔ ∃ s < 4, 5 ≤ suitCnt cs s := by
  unfold isFlush
  rw [Bool.and_eq_true, Nat.beq_eq, List.any_eq_true]
  constructor
  · rintro ⟨h5, s, hs, hall⟩
    refine ⟨s, by simp at hs; omega, ?_⟩
    have : suitCnt cs s = cs.length := by
      unfold suitCnt
      rw [List.countP_eq_length]
      simpa using hall
    omega
  · rintro ⟨s, hs, h5⟩
    have hle := suitCnt_le_length cs s
    refine ⟨by omega, s, by simp; omega, ?_⟩
    have : suitCnt cs s = cs.length := by omega
    unfold suitCnt at this
    rw [List.countP_eq_length] at this
    simpa using this

theorem value_code {cs : List Nat} (h : IsCards cs) (h2 : 2 ≤ cs.length) (h5 : cs.length ≤ 5) :
    (ofCards cs).evaluate < 36875 ∧ fastCode (ofCards cs).evaluate = encode (value cs) := by
  rcases flush_cases cs with hno | ⟨s, hs, hf⟩
  · rw [evaluate_noflush h.2 hno]
    have : isFlush cs = false := by
      rw [← Bool.not_eq_true, isFlush_iff cs h5]
      rintro ⟨s, h4, hf⟩
      have := hno s h4
      omega
    rw [value, this]
    exact L_code h h2 h5
  · rw [evaluate_flush h (by omega) hs hf]
    have hle := suitCnt_le_length cs s
    have h5' : suitCnt cs s = 5 := by omega
    have hcnt : suitCnt cs s = cs.length := by omega
    have hall : ∀ c ∈ cs, c % 4 = s := by
      unfold suitCnt at hcnt
      rw [List.countP_eq_length] at hcnt
      intro c hc
      simpa [Spec.suit] using hcnt c hc
    have e : (fun r => (suitBits cs s).getD r 0) = countRank cs := by
      funext r
      rw [suitBits_getD h hs]
      by_cases hm : 4 * r + s ∈ cs
      · rw [if_pos hm]
        unfold countRank
        have : (cs.countP fun c => Nat.beq (Spec.rank c) r) = cs.count (4 * r + s) := by
          rw [List.count_eq_countP]
          apply List.countP_congr
          intro c hc
          have := hall c hc
          simp only [Spec.rank, Nat.beq_eq, beq_iff_eq]
          omega
        rw [this, List.count_eq_one_of_mem h.1 hm]
      · rw [if_neg hm]
        symm
        unfold countRank
        rw [List.countP_eq_zero]
        intro c hc hcr
        have := hall c hc
        simp only [Spec.rank, Nat.beq_eq] at hcr
        exact hm (by rwa [show 4 * r + s = c by omega])
    have := F_code h hs h5'
    rw [e] at this
    rw [value, (isFlush_iff cs h5).2 ⟨s, hs, hf⟩]
    exact ⟨this.1, this.2.2⟩

/-- Strengths that the certificate can encode. -/
def Enc (v : List Nat) : Prop := v.length ≤ 6 ∧ (∀ x ∈ v, x ≤ 14) ∧ ∃ a t, v = a :: t ∧ 1 ≤ a

theorem encTail_lt (k : Nat) : ∀ v : List Nat, (∀ x ∈ v, x ≤ 14) → encTail k v < 16 ^ k := by
  induction k with
  | zero => intro v _; simp [encTail]
  | succ k ih =>
    intro v hv
    cases v with
    | nil => simp [encTail]
    | cons x v =>
      have h1 := hv x List.mem_cons_self
      have h2 := ih v (fun y hy => hv y (List.mem_cons_of_mem _ hy))
      rw [encTail, pow_succ]
      have : (x + 1) * 16 ^ k ≤ 15 * 16 ^ k := Nat.mul_le_mul_right _ (by omega)
      omega

theorem digit_lt {a b x y B : Nat} (hx : x < B) (hy : y < B) : a * B + x < b * B + y ↔ a < b ∨ (a = b ∧ x < y) := by
  constructor
  · intro h
    rcases Nat.lt_trichotomy a b with hl | rfl | hl
    · exact Or.inl hl
    · exact Or.inr ⟨rfl, by omega⟩
    · exfalso
      have : (b + 1) * B ≤ a * B := Nat.mul_le_mul_right _ hl
      rw [Nat.add_mul] at this
      omega
  · rintro (h | ⟨rfl, h⟩)
    · have : (a + 1) * B ≤ b * B := Nat.mul_le_mul_right _ h
      rw [Nat.add_mul] at this
      omega
    · omega

theorem encTail_lt_iff (k : Nat) : ∀ u v : List Nat, u.length ≤ k → v.length ≤ k → (∀ x ∈ u, x ≤ 14) → (∀ x ∈ v, x ≤ 14) →
    (encTail k u < encTail k v ↔ u < v) := by
  induction k with
  | zero =>
    intro u v hu hv _ _
    have hu : u = [] := List.length_eq_zero_iff.1 (by omega)
    have hv : v = [] := List.length_eq_zero_iff.1 (by omega)
    subst hu hv
    simp [encTail]
  | succ k ih =>
    intro u v hu hv hu' hv'
    cases u with
    | nil =>
      cases v with
      | nil => simp [encTail]
      | cons y v =>
        simp only [encTail, List.nil_lt_cons, iff_true]
        have : 0 < 16 ^ k := by positivity
        have : 0 < (y + 1) * 16 ^ k := by positivity
        omega
    | cons x u =>
      cases v with
      | nil => simp [encTail]
      | cons y v =>
        have h1 : ∀ z ∈ u, z ≤ 14 := fun z hz => hu' z (List.mem_cons_of_mem _ hz)
        have h2 : ∀ z ∈ v, z ≤ 14 := fun z hz => hv' z (List.mem_cons_of_mem _ hz)
        rw [encTail, encTail, digit_lt (encTail_lt k u h1) (encTail_lt k v h2),
          ih u v (by simpa using hu) (by simpa using hv) h1 h2, List.cons_lt_cons_iff]
        simp only [Nat.add_lt_add_iff_right, Nat.add_right_cancel_iff]

theorem encode_lt_iff {u v : List Nat} (hu : Enc u) (hv : Enc v) : encode u < encode v ↔ u < v := by
  obtain ⟨h1, h2, a, t, rfl, _⟩ := hu
  obtain ⟨h3, h4, b, w, rfl, _⟩ := hv
  have h2' : ∀ z ∈ t, z ≤ 14 := fun z hz => h2 z (List.mem_cons_of_mem _ hz)
  have h4' : ∀ z ∈ w, z ≤ 14 := fun z hz => h4 z (List.mem_cons_of_mem _ hz)
  rw [encode, encode, digit_lt (encTail_lt 5 t h2') (encTail_lt 5 w h4'),
    encTail_lt_iff 5 t w (by simpa using h1) (by simpa using h3) h2' h4', List.cons_lt_cons_iff]

theorem encode_ne_zero {v : List Nat} (hv : Enc v) : encode v ≠ 0 := by
  obtain ⟨_, _, a, t, rfl, ha⟩ := hv
  rw [encode]
  omega

theorem encode_shift {a : Nat} {t : List Nat} (hv : Enc (a :: t)) : encode (a :: t) >>> 20 = a := by
  have := encTail_lt 5 t (fun z hz => hv.2.1 z (List.mem_cons_of_mem _ hz))
  rw [encode, Nat.shiftRight_eq_div_pow]
  omega

theorem ranksWith_sum (cnt : Nat → Nat) (l : List Nat) :
    (l.filter (fun r => Nat.beq (cnt r) 4)).length + (l.filter (fun r => Nat.beq (cnt r) 3)).length +
    (l.filter (fun r => Nat.beq (cnt r) 2)).length + (l.filter (fun r => Nat.beq (cnt r) 1)).length ≤ (l.map cnt).sum := by
  induction l with
  | nil => simp
  | cons a l ih =>
    simp only [List.filter_cons, List.map_cons, List.sum_cons, Nat.beq_eq]
    split_ifs <;> (try simp only [List.length_cons]) <;> omega

theorem value_enc {cs : List Nat} (h : IsCards cs) (h5 : cs.length ≤ 5) : Enc (value cs) := by
  have hcat : 1 ≤ categoryOf (countRank cs) (isFlush cs) ∧ categoryOf (countRank cs) (isFlush cs) ≤ 9 := by
    unfold categoryOf
    simp only
    split_ifs <;> omega
  unfold value valueOf
  cases hst : straightTop (countRank cs) with
  | some t =>
    refine ⟨by simp, ?_, _, _, rfl, hcat.1⟩
    have ht : t ≤ 12 := by
      unfold straightTop at hst
      rw [Option.map_eq_some_iff] at hst
      obtain ⟨p, hp, rfl⟩ := hst
      have := List.mem_of_find?_eq_some hp
      revert this
      unfold straights
      simp only [List.mem_cons, List.not_mem_nil, or_false]
      rintro (rfl | rfl | rfl | rfl | rfl | rfl | rfl | rfl | rfl | rfl) <;> decide
    intro x hx
    simp only [List.mem_cons, List.not_mem_nil, or_false] at hx
    rcases hx with rfl | rfl <;> omega
  | none =>
    refine ⟨?_, ?_, _, _, rfl, hcat.1⟩
    · have := ranksWith_sum (countRank cs) ranksDesc
      rw [show (ranksDesc.map (countRank cs)).sum = cs.length from sum_cntList cs h.2] at this
      simp only [List.length_cons, pattern, ranksWith, List.length_append]
      omega
    · intro x hx
      rw [List.mem_cons] at hx
      rcases hx with rfl | hx
      · omega
      · have hd : ∀ y ∈ ranksDesc, y ≤ 14 := by decide
        unfold pattern ranksWith at hx
        simp only [List.mem_append, List.mem_filter] at hx
        apply hd
        rcases hx with hx | hx | hx | hx <;> exact hx.1

/-! The best playable hand. -/

theorem le_foldr_max (l : List (List Nat)) : ∀ x ∈ l, x ≤ l.foldr max [] := by
  induction l with
  | nil => simp
  | cons a l ih =>
    intro x hx
    rw [List.foldr_cons]
    rcases List.mem_cons.1 hx with rfl | hx
    · exact le_max_left _ _
    · exact (ih x hx).trans (le_max_right _ _)

theorem foldr_max_mem (l : List (List Nat)) (hl : l ≠ []) : l.foldr max [] ∈ l := by
  induction l with
  | nil => exact absurd rfl hl
  | cons a l ih =>
    rw [List.foldr_cons]
    by_cases hn : l = []
    · subst hn
      rw [List.foldr_nil, max_eq_left (by cases a with
        | nil => exact le_refl _
        | cons x t => exact le_of_lt (List.nil_lt_cons x t))]
      exact List.mem_cons_self
    · rcases max_choice a (l.foldr max []) with h | h
      · rw [h]; exact List.mem_cons_self
      · rw [h]; exact List.mem_cons_of_mem _ (ih hn)

theorem mem_playable {cs x : List Nat} : x ∈ playable cs ↔ x.Sublist cs ∧ x.length = min 5 cs.length :=
  List.mem_sublistsLen

theorem playable_ne_nil (cs : List Nat) : playable cs ≠ [] := by
  have : cs.take (min 5 cs.length) ∈ playable cs := mem_playable.2 ⟨List.take_sublist _ _, by simp⟩
  exact List.ne_nil_of_mem this

theorem best_mem (cs : List Nat) : ∃ x ∈ playable cs, value x = best cs := by
  have := foldr_max_mem ((playable cs).map value) (by simpa using playable_ne_nil cs)
  obtain ⟨x, hx, he⟩ := List.mem_map.1 this
  exact ⟨x, hx, he⟩

theorem le_best {cs x : List Nat} (hx : x ∈ playable cs) : value x ≤ best cs :=
  le_foldr_max _ _ (List.mem_map_of_mem hx)

theorem best_small {cs : List Nat} (h5 : cs.length ≤ 5) : best cs = value cs := by
  obtain ⟨x, hx, he⟩ := best_mem cs
  have := mem_playable.1 hx
  rw [Nat.min_eq_right h5] at this
  rw [← he, this.1.eq_of_length this.2]

theorem best_enc {cs : List Nat} (h : IsCards cs) : Enc (best cs) := by
  obtain ⟨x, hx, he⟩ := best_mem cs
  have := mem_playable.1 hx
  rw [← he]
  exact value_enc (IsCards.sublist h this.1) (by omega)

theorem sublist_erase {x cs : List Nat} {c : Nat} (h : x.Sublist cs) (hc : c ∉ x) : x.Sublist (cs.erase c) := by
  have := h.erase c
  rwa [List.erase_of_not_mem hc] at this

theorem best_erase_le {cs : List Nat} (h6 : 6 ≤ cs.length) {c : Nat} (hc : c ∈ cs) : best (cs.erase c) ≤ best cs := by
  obtain ⟨x, hx, he⟩ := best_mem (cs.erase c)
  have := mem_playable.1 hx
  rw [List.length_erase_of_mem hc] at this
  rw [← he]
  exact le_best (mem_playable.2 ⟨this.1.trans List.erase_sublist, by omega⟩)

theorem best_erase_eq {cs : List Nat} (h : cs.Nodup) (h6 : 6 ≤ cs.length) : ∃ c ∈ cs, best (cs.erase c) = best cs := by
  obtain ⟨x, hx, he⟩ := best_mem cs
  have hx' := mem_playable.1 hx
  have : ∃ c ∈ cs, c ∉ x := by
    by_contra hcon
    have hsub : cs ⊆ x := fun c hc => by
      by_contra hcx
      exact hcon ⟨c, hc, hcx⟩
    have := nodup_length_le h hsub
    omega
  obtain ⟨c, hc, hcx⟩ := this
  refine ⟨c, hc, le_antisymm (best_erase_le h6 hc) ?_⟩
  rw [← he]
  exact le_best (mem_playable.2 ⟨sublist_erase hx'.1 hcx, by rw [List.length_erase_of_mem hc]; omega⟩)

/-- The score of two to seven cards encodes the strength of the best playable hand. -/
theorem evaluate_code (n : Nat) : ∀ cs : List Nat, IsCards cs → cs.length = n → 2 ≤ n → n ≤ 7 →
    (ofCards cs).evaluate < 36875 ∧ fastCode (ofCards cs).evaluate = encode (best cs) := by
  induction n with
  | zero => intro cs _ _ h2; omega
  | succ n ih =>
    intro cs h hn h2 h7
    by_cases h5 : n + 1 ≤ 5
    · rw [best_small (by omega)]
      exact value_code h (by omega) (by omega)
    · obtain ⟨c0, hc0, hb0⟩ := best_erase_eq h.1 (by omega : 6 ≤ cs.length)
      obtain ⟨c1, hc1, he1⟩ := evaluate_erase_eq h (by omega) (by omega)
      have i0 := ih (cs.erase c0) (IsCards.erase h c0) (by rw [List.length_erase_of_mem hc0]; omega) (by omega) (by omega)
      have i1 := ih (cs.erase c1) (IsCards.erase h c1) (by rw [List.length_erase_of_mem hc1]; omega) (by omega) (by omega)
      have le0 := evaluate_erase_le h (by omega) (by omega) hc0
      rw [← he1] at le0
      have en0 := best_enc (IsCards.erase h c0)
      have en1 := best_enc (IsCards.erase h c1)
      have hle : best (cs.erase c0) ≤ best (cs.erase c1) := by
        rw [← not_lt, ← encode_lt_iff en1 en0, ← i1.2, ← i0.2,
          code_lt i1.1 i0.1 (by rw [i1.2]; exact encode_ne_zero en1) (by rw [i0.2]; exact encode_ne_zero en0)]
        omega
      have hbest : best (cs.erase c1) = best cs :=
        le_antisymm (best_erase_le (by omega) hc1) (hb0 ▸ hle)
      rw [← he1, ← hbest]
      exact i1

/-- Scores are ordered as strengths. -/
theorem evaluate_lt_iff {xs ys : List Nat} (hx : IsCards xs) (hy : IsCards ys) (hx2 : 2 ≤ xs.length) (hx7 : xs.length ≤ 7)
    (hy2 : 2 ≤ ys.length) (hy7 : ys.length ≤ 7) :
    (ofCards xs).evaluate < (ofCards ys).evaluate ↔ best xs < best ys := by
  have cx := evaluate_code _ xs hx rfl hx2 hx7
  have cy := evaluate_code _ ys hy rfl hy2 hy7
  have ex := best_enc hx
  have ey := best_enc hy
  rw [← encode_lt_iff ex ey, ← cx.2, ← cy.2,
    code_lt cx.1 cy.1 (by rw [cx.2]; exact encode_ne_zero ex) (by rw [cy.2]; exact encode_ne_zero ey)]

theorem evaluate_category {cs : List Nat} (h : IsCards cs) (h2 : 2 ≤ cs.length) (h7 : cs.length ≤ 7) :
    ∃ t, best cs = ((ofCards cs).evaluate >>> 12) :: t := by
  have c := evaluate_code _ cs h rfl h2 h7
  have en := best_enc h
  have hcat := code_category c.1 (by rw [c.2]; exact encode_ne_zero en)
  rw [c.2] at hcat
  obtain ⟨_, _, a, t, he, _⟩ := id en
  rw [he] at hcat en
  rw [encode_shift en] at hcat
  exact ⟨t, by rw [he, hcat]⟩

end Pokers
