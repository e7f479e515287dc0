import Verif.Proofs.HandAlgebra
import Verif.Proofs.TableFlush
import Verif.Proofs.TableBig6
import Mathlib.Data.List.Nodup
import Mathlib.Data.List.Perm.Subperm
/-!
The kernel-computed Booleans of `Table*.lean` turned into statements about lists of cards.
-/
namespace Pokers.Kernel
open Spec

/-- Score of the rank multiset of the cards. -/
noncomputable def L (cs : List Nat) : Nat := fastLookup (rankSum cs)

/-- Multiplicities, ace first. -/
def cntList (cs : List Nat) : List Nat := ranksDesc.map (countRank cs)

theorem countRank_cons (c : Nat) (cs : List Nat) (r : Nat) :
    countRank (c :: cs) r = countRank cs r + if c / 4 = r then 1 else 0 := by
  unfold countRank
  rw [List.countP_cons]
  simp [Spec.rank]

theorem RANKS_getD {q : Nat} (h : q < 13) : RANKS.getD q 0 =
    (if q = 12 then 1 else 0) * 4801683 + ((if q = 11 then 1 else 0) * 4780561 + ((if q = 10 then 1 else 0) * 4767972 +
    ((if q = 9 then 1 else 0) * 4690024 + ((if q = 8 then 1 else 0) * 4685870 + ((if q = 7 then 1 else 0) * 4300819 +
    ((if q = 6 then 1 else 0) * 3563520 + ((if q = 5 then 1 else 0) * 1531909 + ((if q = 4 then 1 else 0) * 593920 +
    ((if q = 3 then 1 else 0) * 237568 + ((if q = 2 then 1 else 0) * 69632 + ((if q = 1 then 1 else 0) * 32769 +
    (if q = 0 then 1 else 0) * 8192))))))))))) := by
  revert q; decide

theorem dot_cntList (cs : List Nat) (h : ∀ c ∈ cs, c < 52) : dot ranksRev (cntList cs) = rankSum cs := by
  induction cs with
  | nil => decide
  | cons c cs ih =>
    have ih := ih (fun x hx => h x (List.mem_cons_of_mem _ hx))
    have hc := h c List.mem_cons_self
    simp only [rankSum, List.map_cons, List.sum_cons] at *
    rw [← ih]
    simp only [cntList, ranksDesc, List.map_cons, List.map_nil, countRank_cons, ranksRev, dot]
    rw [RANKS_getD (by omega : c / 4 < 13)]
    ring

theorem sum_cntList (cs : List Nat) (h : ∀ c ∈ cs, c < 52) : (cntList cs).sum = cs.length := by
  induction cs with
  | nil => decide
  | cons c cs ih =>
    have ih := ih (fun x hx => h x (List.mem_cons_of_mem _ hx))
    have hc := h c List.mem_cons_self
    rw [List.length_cons, ← ih]
    simp only [cntList, ranksDesc, List.map_cons, List.map_nil, countRank_cons, List.sum_cons, List.sum_nil]
    have hq : c / 4 < 13 := by omega
    revert hq
    generalize c / 4 = q
    intro hq
    interval_cases q <;> simp <;> ring

theorem nodup_length_le {l m : List Nat} (h : l.Nodup) (hs : l ⊆ m) : l.length ≤ m.length :=
  (List.subperm_of_subset h hs).length_le

theorem countRank_le (cs : List Nat) (h : cs.Nodup) (r : Nat) : countRank cs r ≤ 4 := by
  unfold countRank
  rw [List.countP_eq_length_filter]
  have : (cs.filter fun c => Nat.beq (Spec.rank c) r).length ≤ [4 * r, 4 * r + 1, 4 * r + 2, 4 * r + 3].length := by
    apply nodup_length_le (h.filter _)
    intro c hc
    have := (List.mem_filter.1 hc).2
    simp only [Spec.rank, Nat.beq_eq] at this
    simp only [List.mem_cons, List.not_mem_nil, or_false]
    omega
  simpa using this

theorem cntList_le {cs : List Nat} (h : cs.Nodup) : ∀ c ∈ cntList cs, c ≤ 4 := by
  intro c hc
  obtain ⟨r, _, rfl⟩ := List.mem_map.1 hc
  exact countRank_le cs h r

/-- Multiplicities, deuce first. -/
def cntUp (cs : List Nat) : List Nat := (List.range 13).map (countRank cs)

theorem cntList_reverse (cs : List Nat) : (cntList cs).reverse ++ [] = cntUp cs := by
  rw [List.append_nil]; rfl

/-- A check over all rank multisets of at most `n` cards, applied to the cards `cs`. -/
theorem apply_check {P : Nat → Nat → List Nat → Bool} {n : Nat} (hP : forCounts P ranksRev n 0 [] = true)
    {cs : List Nat} (h : IsCards cs) (hn : cs.length ≤ n) : P (n - cs.length) (rankSum cs) (cntUp cs) = true := by
  have := forCounts_sound P ranksRev n 0 [] hP (cntList cs) rfl (cntList_le h.1) (by rw [sum_cntList _ h.2]; exact hn)
  rwa [sum_cntList _ h.2, dot_cntList _ h.2, cntList_reverse, Nat.zero_add] at this

theorem cntUp_getD (cs : List Nat) (h : ∀ c ∈ cs, c < 52) (r : Nat) : (cntUp cs).getD r 0 = countRank cs r := by
  by_cases hr : r < 13
  · rw [cntUp, List.getD_eq_getElem _ _ (by simpa using hr)]; simp
  · rw [List.getD_eq_default _ _ (by simpa [cntUp] using hr)]
    symm
    unfold countRank
    rw [List.countP_eq_zero]
    intro c hc
    have := h c hc
    simp only [Spec.rank, Nat.beq_eq]
    omega

theorem remCheck_cons (x key r : Nat) (rs : List Nat) (c : Nat) (cs : List Nat) (seen : Bool) :
    remCheck x key (r :: rs) (c :: cs) seen = true ↔
      (c = 0 ∧ remCheck x key rs cs seen = true) ∨
      (0 < c ∧ fastLookup (key - r) ≤ x ∧ remCheck x key rs cs (seen || Nat.beq (fastLookup (key - r)) x) = true) := by
  cases c with
  | zero => simp; rfl
  | succ c =>
    have e : remCheck x key (r :: rs) ((c + 1) :: cs) seen =
      bif' (Nat.ble (fastLookup (key - r)) x)
        (bif' (Nat.beq (fastLookup (key - r)) x) (remCheck x key rs cs true) (remCheck x key rs cs seen)) false := rfl
    rw [e, bif'_and, Bool.and_eq_true, Nat.ble_eq]
    by_cases hb : Nat.beq (fastLookup (key - r)) x = true
    · simp [hb]
    · rw [Bool.not_eq_true] at hb; simp [hb]

theorem remCheck_sound (x key : Nat) (rs : List Nat) : ∀ (cs : List Nat) (seen : Bool), cs.length = rs.length →
    remCheck x key rs cs seen = true →
    (∀ i, 0 < cs.getD i 0 → fastLookup (key - rs.getD i 0) ≤ x) ∧
    (seen = true ∨ ∃ i, 0 < cs.getD i 0 ∧ fastLookup (key - rs.getD i 0) = x) := by
  induction rs with
  | nil =>
    intro cs seen hl h
    cases cs with
    | nil => exact ⟨fun i hi => by simp at hi, Or.inl h⟩
    | cons => simp at hl
  | cons r rs ih =>
    intro cs seen hl h
    cases cs with
    | nil => simp at hl
    | cons c cs =>
      have hl' : cs.length = rs.length := by simpa using hl
      rw [remCheck_cons] at h
      rcases h with ⟨rfl, h⟩ | ⟨hc, hle, h⟩
      · obtain ⟨h1, h2⟩ := ih cs seen hl' h
        refine ⟨fun i hi => ?_, ?_⟩
        · cases i with
          | zero => simp at hi
          | succ i => exact h1 i hi
        · rcases h2 with h2 | ⟨i, h2⟩
          · exact Or.inl h2
          · exact Or.inr ⟨i + 1, h2⟩
      · obtain ⟨h1, h2⟩ := ih cs _ hl' h
        refine ⟨fun i hi => ?_, ?_⟩
        · cases i with
          | zero => exact hle
          | succ i => exact h1 i hi
        · rcases h2 with h2 | ⟨i, h2⟩
          · rw [Bool.or_eq_true, Nat.beq_eq] at h2
            rcases h2 with h2 | h2
            · exact Or.inl h2
            · exact Or.inr ⟨0, hc, h2⟩
          · exact Or.inr ⟨i + 1, h2⟩

theorem rankSum_erase {cs : List Nat} {c : Nat} (hc : c ∈ cs) :
    rankSum (cs.erase c) = rankSum cs - RANKS.getD (c / 4) 0 := by
  have hp : cs.Perm (c :: cs.erase c) := List.perm_cons_erase hc
  have : rankSum cs = rankSum (c :: cs.erase c) := (hp.map _).sum_eq
  rw [this]
  simp [rankSum]

theorem countRank_pos_of_mem {cs : List Nat} {c : Nat} (hc : c ∈ cs) : 0 < countRank cs (c / 4) := by
  unfold countRank
  rw [List.countP_pos_iff]
  exact ⟨c, hc, by simp [Spec.rank]⟩

theorem exists_of_countRank_pos {cs : List Nat} {r : Nat} (h : 0 < countRank cs r) : ∃ c ∈ cs, c / 4 = r := by
  unfold countRank at h
  rw [List.countP_pos_iff] at h
  obtain ⟨c, hc, h⟩ := h
  exact ⟨c, hc, by simpa [Spec.rank] using h⟩

theorem remCheck_cards {cs : List Nat} (h : IsCards cs) {seen : Bool}
    (hr : remCheck (L cs) (rankSum cs) RANKS (cntUp cs) seen = true) :
    (∀ c ∈ cs, L (cs.erase c) ≤ L cs) ∧ (seen = true ∨ ∃ c ∈ cs, L (cs.erase c) = L cs) := by
  obtain ⟨h1, h2⟩ := remCheck_sound _ _ _ _ _ (by simp [cntUp, RANKS]) hr
  refine ⟨fun c hc => ?_, ?_⟩
  · have := h1 (c / 4) (by rw [cntUp_getD cs h.2]; exact countRank_pos_of_mem hc)
    rwa [← rankSum_erase hc] at this
  · rcases h2 with h2 | ⟨i, hi, h2⟩
    · exact Or.inl h2
    · rw [cntUp_getD cs h.2] at hi
      obtain ⟨c, hc, rfl⟩ := exists_of_countRank_pos hi
      rw [← rankSum_erase hc] at h2
      exact Or.inr ⟨c, hc, h2⟩

/-- Six and seven cards: the rank score is the maximum over leaving out a card. -/
theorem L_big {cs : List Nat} (h : IsCards cs) (hn : cs.length = 6 ∨ cs.length = 7) :
    (∀ c ∈ cs, L (cs.erase c) ≤ L cs) ∧ ∃ c ∈ cs, L (cs.erase c) = L cs := by
  have key : remCheck (L cs) (rankSum cs) RANKS (cntUp cs) false = true := by
    rcases hn with hn | hn
    · have := apply_check big6 h (by omega)
      rw [hn] at this
      exact this
    · have := apply_check big7 h (by omega)
      rw [hn] at this
      exact this
  simpa using remCheck_cards h key

/-- Three to five cards: leaving out a card does not raise the rank score. -/
theorem L_mono {cs : List Nat} (h : IsCards cs) (h3 : 3 ≤ cs.length) (h5 : cs.length ≤ 5) :
    ∀ c ∈ cs, L (cs.erase c) ≤ L cs := by
  have := apply_check mono5 h h5
  unfold leafMono at this
  rw [Nat.ble_eq_true_of_le (by omega : 5 - cs.length ≤ 2)] at this
  exact (remCheck_cards h this).1

theorem distinct_eq (cs : List Nat) : distinct cs = cs.countP (fun c => decide (0 < c)) := by
  induction cs with
  | nil => rfl
  | cons c cs ih =>
    rw [List.countP_cons, ← ih]
    cases c with
    | zero => rfl
    | succ c => simp; rfl

theorem distinct_ge {cs : List Nat} (h : IsCards cs) (s : Nat) : suitCnt cs s ≤ distinct (cntUp cs) := by
  rw [distinct_eq, cntUp, List.countP_map, List.countP_eq_length_filter, suitCnt, List.countP_eq_length_filter,
    ← List.length_map (f := fun c => c / 4)]
  apply nodup_length_le
  · apply List.Nodup.map_on _ (h.1.filter _)
    intro a ha b hb hab
    have h1 := (List.mem_filter.1 ha).2
    have h2 := (List.mem_filter.1 hb).2
    simp only [Spec.suit, Nat.beq_eq] at h1 h2
    omega
  · intro r hr
    obtain ⟨c, hc, rfl⟩ := List.mem_map.1 hr
    have hc := (List.mem_filter.1 hc).1
    have := h.2 c hc
    simp only [List.mem_filter, List.mem_range, Function.comp, decide_eq_true_eq]
    exact ⟨by omega, countRank_pos_of_mem hc⟩

/-- At most six cards, four of them of one suit: the rank score is below every flush. -/
theorem L_noFlush {cs : List Nat} (h : IsCards cs) (h6 : cs.length ≤ 6) {s : Nat} (hs : 4 ≤ suitCnt cs s) :
    L cs < 24576 := by
  have := apply_check noFlush6 h h6
  unfold leafNoFlush at this
  rw [Nat.ble_eq_true_of_le (hs.trans (distinct_ge h s))] at this
  exact Nat.le_of_ble_eq_true this

/-- In-bounds facts of the two-level hash for at most seven cards. -/
theorem L_bounds {cs : List Nat} (h : IsCards cs) (h7 : cs.length ≤ 7) :
    rankSum cs >>> 12 < 8191 ∧ fastHash (rankSum cs) < 86362 := by
  have := apply_check bounds7 h h7
  unfold leafBounds at this
  rw [bif'_and, Bool.and_eq_true] at this
  exact ⟨Nat.le_of_ble_eq_true this.1, Nat.le_of_ble_eq_true this.2⟩

/-- Two to five cards: the certificate maps the rank score to the strength with suits ignored. -/
theorem L_code {cs : List Nat} (h : IsCards cs) (h2 : 2 ≤ cs.length) (h5 : cs.length ≤ 5) :
    L cs < 36875 ∧ fastCode (L cs) = encode (valueOf (countRank cs) false) := by
  have := apply_check code5 h h5
  unfold leafCode at this
  rw [Nat.ble_eq_true_of_le (by omega : 5 - cs.length ≤ 3)] at this
  have e : (fun r => (cntUp cs).getD r 0) = countRank cs := funext (cntUp_getD cs h.2)
  rw [e] at this
  have this : bif' (Nat.ble (Nat.succ (L cs)) 36875) (Nat.beq (fastCode (L cs)) (encode (valueOf (countRank cs) false)))
    false = true := this
  rw [bif'_and, Bool.and_eq_true, Nat.beq_eq] at this
  exact ⟨Nat.le_of_ble_eq_true this.1, this.2⟩

/-! The flush table. -/

/-- Rank mask of the cards of suit `s`. -/
def suitBits (cs : List Nat) (s : Nat) : List Nat := (List.range 13).map (fun r => if 4 * r + s ∈ cs then 1 else 0)

/-- Rank mask as a number. -/
def suitMask (cs : List Nat) (s : Nat) : Nat := dot bitsUp (suitBits cs s)

/-- Score of the flush in suit `s`. -/
noncomputable def F (cs : List Nat) (s : Nat) : Nat := fastFlush (suitMask cs s)

theorem suitBits_sum {cs : List Nat} (h : IsCards cs) {s : Nat} (hs : s < 4) : (suitBits cs s).sum = suitCnt cs s := by
  have e : (suitBits cs s).sum = ((List.range 13).filter (fun r => decide (4 * r + s ∈ cs))).length := by
    unfold suitBits
    generalize List.range 13 = l
    induction l with
    | nil => rfl
    | cons a l ih =>
      rw [List.map_cons, List.sum_cons, ih, List.filter_cons]
      by_cases hm : 4 * a + s ∈ cs <;> simp [hm]; omega
  rw [e, suitCnt, List.countP_eq_length_filter, ← List.length_map (f := fun c => c / 4) (as := cs.filter _)]
  apply List.Perm.length_eq
  rw [List.perm_ext_iff_of_nodup]
  · intro r
    simp only [List.mem_filter, List.mem_range, decide_eq_true_eq, List.mem_map, Spec.suit, Nat.beq_eq]
    constructor
    · rintro ⟨hr, hm⟩
      exact ⟨_, ⟨hm, by omega⟩, by omega⟩
    · rintro ⟨c, ⟨hm, hc⟩, rfl⟩
      have := h.2 c hm
      exact ⟨by omega, by rwa [show 4 * (c / 4) + s = c by omega]⟩
  · exact List.nodup_range.filter _
  · apply List.Nodup.map_on _ (h.1.filter _)
    intro a ha b hb hab
    have h1 := (List.mem_filter.1 ha).2
    have h2 := (List.mem_filter.1 hb).2
    simp only [Spec.suit, Nat.beq_eq] at h1 h2
    omega

theorem suitBits_le (cs : List Nat) (s : Nat) : ∀ c ∈ (suitBits cs s).reverse, c ≤ 1 := by
  intro c hc
  rw [List.mem_reverse, suitBits, List.mem_map] at hc
  obtain ⟨r, _, rfl⟩ := hc
  split <;> omega

theorem suitMask_eq_rev (cs : List Nat) (s : Nat) : dot bitsRev (suitBits cs s).reverse = suitMask cs s := by
  simp only [suitMask, suitBits, show List.range 13 = [0,1,2,3,4,5,6,7,8,9,10,11,12] from rfl, List.map_cons, List.map_nil,
    List.reverse_cons, List.reverse_nil, List.nil_append, List.cons_append, dot, bitsRev, bitsUp]
  omega

theorem apply_flush {P : Nat → List Nat → Bool} (hP : forBits P bitsRev 0 [] = true) (cs : List Nat) (s : Nat) :
    P (suitMask cs s) (suitBits cs s) = true := by
  have := forBits_sound P bitsRev 0 [] hP (suitBits cs s).reverse (by simp [suitBits, bitsRev]) (suitBits_le cs s)
  rwa [suitMask_eq_rev, Nat.zero_add, List.reverse_reverse, List.append_nil] at this

theorem remFlush_cons (x key r : Nat) (rs : List Nat) (c : Nat) (cs : List Nat) (seen : Bool) :
    remFlush x key (r :: rs) (c :: cs) seen = true ↔
      (c = 0 ∧ remFlush x key rs cs seen = true) ∨
      (0 < c ∧ fastFlush (key - r) ≤ x ∧ remFlush x key rs cs (seen || Nat.beq (fastFlush (key - r)) x) = true) := by
  cases c with
  | zero => simp; rfl
  | succ c =>
    have e : remFlush x key (r :: rs) ((c + 1) :: cs) seen =
      bif' (Nat.ble (fastFlush (key - r)) x)
        (bif' (Nat.beq (fastFlush (key - r)) x) (remFlush x key rs cs true) (remFlush x key rs cs seen)) false := rfl
    rw [e, bif'_and, Bool.and_eq_true, Nat.ble_eq]
    by_cases hb : Nat.beq (fastFlush (key - r)) x = true
    · simp [hb]
    · rw [Bool.not_eq_true] at hb; simp [hb]

theorem remFlush_sound (x key : Nat) (rs : List Nat) : ∀ (cs : List Nat) (seen : Bool), cs.length = rs.length →
    remFlush x key rs cs seen = true →
    (∀ i, 0 < cs.getD i 0 → fastFlush (key - rs.getD i 0) ≤ x) ∧
    (seen = true ∨ ∃ i, 0 < cs.getD i 0 ∧ fastFlush (key - rs.getD i 0) = x) := by
  induction rs with
  | nil =>
    intro cs seen hl h
    cases cs with
    | nil => exact ⟨fun i hi => by simp at hi, Or.inl h⟩
    | cons => simp at hl
  | cons r rs ih =>
    intro cs seen hl h
    cases cs with
    | nil => simp at hl
    | cons c cs =>
      have hl' : cs.length = rs.length := by simpa using hl
      rw [remFlush_cons] at h
      rcases h with ⟨rfl, h⟩ | ⟨hc, hle, h⟩
      · obtain ⟨h1, h2⟩ := ih cs seen hl' h
        refine ⟨fun i hi => ?_, ?_⟩
        · cases i with
          | zero => simp at hi
          | succ i => exact h1 i hi
        · rcases h2 with h2 | ⟨i, h2⟩
          · exact Or.inl h2
          · exact Or.inr ⟨i + 1, h2⟩
      · obtain ⟨h1, h2⟩ := ih cs _ hl' h
        refine ⟨fun i hi => ?_, ?_⟩
        · cases i with
          | zero => exact hle
          | succ i => exact h1 i hi
        · rcases h2 with h2 | ⟨i, h2⟩
          · rw [Bool.or_eq_true, Nat.beq_eq] at h2
            rcases h2 with h2 | h2
            · exact Or.inl h2
            · exact Or.inr ⟨0, hc, h2⟩
          · exact Or.inr ⟨i + 1, h2⟩

theorem suitBits_getD {cs : List Nat} (h : IsCards cs) {s : Nat} (hs : s < 4) (r : Nat) :
    (suitBits cs s).getD r 0 = if 4 * r + s ∈ cs then 1 else 0 := by
  by_cases hr : r < 13
  · rw [suitBits, List.getD_eq_getElem _ _ (by simpa using hr)]; simp
  · rw [List.getD_eq_default _ _ (by simpa [suitBits] using hr), if_neg]
    intro hm
    have := h.2 _ hm
    omega

theorem suitMask_erase_other {cs : List Nat} (h : IsCards cs) {s c : Nat} (hs : s < 4) (hc : c % 4 ≠ s) :
    suitMask (cs.erase c) s = suitMask cs s := by
  have : suitBits (cs.erase c) s = suitBits cs s := by
    unfold suitBits
    apply List.map_congr_left
    intro r _
    have : 4 * r + s ∈ cs.erase c ↔ 4 * r + s ∈ cs := by
      rw [h.1.mem_erase_iff]
      constructor
      · exact fun h => h.2
      · exact fun h => ⟨by omega, h⟩
    simp [this]
  unfold suitMask; rw [this]

theorem suitMask_erase {cs : List Nat} (h : IsCards cs) {c : Nat} (hc : c ∈ cs) :
    suitMask (cs.erase c) (c % 4) = suitMask cs (c % 4) - bitsUp.getD (c / 4) 0 := by
  have hc52 := h.2 c hc
  obtain ⟨q, s, hs, rfl⟩ : ∃ q s, s < 4 ∧ c = 4 * q + s := ⟨c / 4, c % 4, by omega, by omega⟩
  have e1 : (4 * q + s) % 4 = s := by omega
  have e2 : (4 * q + s) / 4 = q := by omega
  rw [e1, e2]
  have key : ∀ r, (if 4 * r + s ∈ cs.erase (4 * q + s) then 1 else 0) = if r = q then 0 else if 4 * r + s ∈ cs then 1 else 0 := by
    intro r
    simp only [h.1.mem_erase_iff]
    by_cases hr : r = q
    · simp [hr]
    · rw [if_neg hr]; simp [show 4 * r ≠ 4 * q by omega]
  simp only [suitMask, suitBits, show List.range 13 = [0,1,2,3,4,5,6,7,8,9,10,11,12] from rfl, List.map_cons, List.map_nil, key]
  have hq : q < 13 := by omega
  have hm : (if 4 * q + s ∈ cs then 1 else 0) = 1 := if_pos hc
  revert hm
  interval_cases q <;> intro hm <;> simp only [dot, bitsUp] <;> norm_num <;> norm_num at hm <;> simp only [hm, if_true] <;> omega

/-- Five cards of suit `s` (and no others matter): the certificate maps the flush score to the strength. -/
theorem F_code {cs : List Nat} (h : IsCards cs) {s : Nat} (hs : s < 4) (h5 : suitCnt cs s = 5) :
    F cs s < 36875 ∧ 24576 ≤ F cs s ∧
      fastCode (F cs s) = encode (valueOf (fun r => (suitBits cs s).getD r 0) true) := by
  have := apply_flush flush5 cs s
  unfold leafFlush5 at this
  rw [total_eq, suitBits_sum h hs, h5] at this
  have this : bif' (Nat.ble (Nat.succ (F cs s)) 36875) (bif' (Nat.ble 24576 (F cs s))
      (Nat.beq (fastCode (F cs s)) (encode (valueOf (fun r => (suitBits cs s).getD r 0) true))) false) false = true := this
  rw [bif'_and, bif'_and, Bool.and_eq_true, Bool.and_eq_true, Nat.beq_eq] at this
  exact ⟨Nat.le_of_ble_eq_true this.1, Nat.le_of_ble_eq_true this.2.1, this.2.2⟩

/-- Six or seven cards of suit `s`: the flush score is the maximum over leaving out a card of the suit. -/
theorem F_big {cs : List Nat} (h : IsCards cs) {s : Nat} (hs : s < 4) (h6 : 6 ≤ suitCnt cs s) (h7 : suitCnt cs s ≤ 7) :
    24576 ≤ F cs s ∧ (∀ c ∈ cs, c % 4 = s → F (cs.erase c) s ≤ F cs s) ∧
      ∃ c ∈ cs, c % 4 = s ∧ F (cs.erase c) s = F cs s := by
  have := apply_flush flushBig cs s
  unfold leafFlushBig at this
  rw [total_eq, suitBits_sum h hs, Nat.ble_eq_true_of_le h6, Nat.ble_eq_true_of_le h7] at this
  have this : bif' (Nat.ble 24576 (F cs s)) (remFlush (F cs s) (suitMask cs s) bitsUp (suitBits cs s) false) false = true := this
  rw [bif'_and, Bool.and_eq_true] at this
  obtain ⟨h1, h2⟩ := remFlush_sound _ _ _ _ _ (by simp [suitBits, bitsUp]) this.2
  refine ⟨Nat.le_of_ble_eq_true this.1, fun c hc hcs => ?_, ?_⟩
  · have := h1 (c / 4) (by rw [suitBits_getD h hs, if_pos (by rwa [show 4 * (c / 4) + s = c by omega])]; omega)
    have e := suitMask_erase h hc
    rw [hcs] at e
    unfold F
    rw [e]
    exact this
  · rcases h2 with h2 | ⟨r, hr, h2⟩
    · simp at h2
    · rw [suitBits_getD h hs] at hr
      have hm : 4 * r + s ∈ cs := by
        by_contra hm
        rw [if_neg hm] at hr
        omega
      refine ⟨_, hm, by omega, ?_⟩
      have e := suitMask_erase h hm
      rw [show (4 * r + s) % 4 = s by omega, show (4 * r + s) / 4 = r by omega] at e
      unfold F
      rw [e]
      exact h2

/-! The certificate itself. -/

theorem scan_sound (fuel : Nat) : ∀ s last, scan fuel s last = true →
    ∀ i < fuel, fastCode (s + i) ≠ 0 → last < fastCode (s + i) ∧ fastCode (s + i) >>> 20 = (s + i) >>> 12 ∧
      ∀ j < fuel, i < j → fastCode (s + j) ≠ 0 → fastCode (s + i) < fastCode (s + j) := by
  induction fuel with
  | zero => intro s last _ i hi; omega
  | succ fuel ih =>
    intro s last h i hi hn
    have e : scan (fuel + 1) s last =
      bif' (Nat.beq (fastCode s) 0) (scan fuel (s + 1) last)
       (bif' (Nat.ble (Nat.succ last) (fastCode s)) (bif' (Nat.beq (Nat.shiftRight (fastCode s) 20) (Nat.shiftRight s 12))
         (scan fuel (s + 1) (fastCode s)) false) false) := rfl
    rw [e] at h
    by_cases hz : fastCode s = 0
    · rw [show Nat.beq (fastCode s) 0 = true by rw [hz]; rfl] at h
      have h : scan fuel (s + 1) last = true := h
      obtain ⟨i, rfl⟩ : ∃ k, i = k + 1 := ⟨i - 1, by
        have : i ≠ 0 := by rintro rfl; exact hn hz
        omega⟩
      rw [show s + (i + 1) = s + 1 + i by omega] at hn ⊢
      obtain ⟨a, b, c⟩ := ih _ _ h i (by omega) hn
      refine ⟨a, b, fun j hj hij hjn => ?_⟩
      obtain ⟨j, rfl⟩ : ∃ k, j = k + 1 := ⟨j - 1, by omega⟩
      rw [show s + (j + 1) = s + 1 + j by omega] at hjn ⊢
      exact c j (by omega) (by omega) hjn
    · rw [show Nat.beq (fastCode s) 0 = false by rw [← Bool.not_eq_true, Nat.beq_eq]; exact hz] at h
      have h : (bif' (Nat.ble (Nat.succ last) (fastCode s)) (bif' (Nat.beq (Nat.shiftRight (fastCode s) 20) (Nat.shiftRight s 12))
         (scan fuel (s + 1) (fastCode s)) false) false) = true := h
      rw [bif'_and, bif'_and, Bool.and_eq_true, Bool.and_eq_true, Nat.beq_eq] at h
      obtain ⟨h1, h2, h3⟩ := h
      have h1 := Nat.le_of_ble_eq_true h1
      rcases Nat.eq_zero_or_pos i with rfl | hi0
      · refine ⟨h1, h2, fun j hj hij hjn => ?_⟩
        obtain ⟨j, rfl⟩ : ∃ k, j = k + 1 := ⟨j - 1, by omega⟩
        rw [show s + (j + 1) = s + 1 + j by omega] at hjn ⊢
        exact (ih _ _ h3 j (by omega) hjn).1
      · obtain ⟨i, rfl⟩ : ∃ k, i = k + 1 := ⟨i - 1, by omega⟩
        rw [show s + (i + 1) = s + 1 + i by omega] at hn ⊢
        obtain ⟨a, b, c⟩ := ih _ _ h3 i (by omega) hn
        refine ⟨by omega, b, fun j hj hij hjn => ?_⟩
        obtain ⟨j, rfl⟩ : ∃ k, j = k + 1 := ⟨j - 1, by omega⟩
        rw [show s + (j + 1) = s + 1 + j by omega] at hjn ⊢
        exact c j (by omega) (by omega) hjn

/-- The certificate is strictly monotone on used scores and carries the category. -/
theorem code_lt {s t : Nat} (hs : s < 36875) (ht : t < 36875) (hs0 : fastCode s ≠ 0) (ht0 : fastCode t ≠ 0) :
    fastCode s < fastCode t ↔ s < t := by
  have key : ∀ s t, s < 36875 → t < 36875 → fastCode s ≠ 0 → fastCode t ≠ 0 → s < t → fastCode s < fastCode t := by
    intro s t hs ht hs0 ht0 hst
    have := (scan_sound 36875 0 0 scanAll s hs (by rwa [Nat.zero_add])).2.2 t ht hst (by rwa [Nat.zero_add])
    rwa [Nat.zero_add, Nat.zero_add] at this
  constructor
  · intro h
    rcases Nat.lt_trichotomy s t with hl | rfl | hl
    · exact hl
    · omega
    · have := key t s ht hs ht0 hs0 hl; omega
  · exact key s t hs ht hs0 ht0

theorem code_category {s : Nat} (hs : s < 36875) (hs0 : fastCode s ≠ 0) : fastCode s >>> 20 = s >>> 12 := by
  have := (scan_sound 36875 0 0 scanAll s hs (by rwa [Nat.zero_add])).2.1
  rwa [Nat.zero_add] at this

end Pokers.Kernel
