import Verif.Proofs.ScoreSets
import Verif.Proofs.HeadsUp
import Verif.Proofs.EvalCorrect
/-!
The set of the scores of all hands of `n` cards, computed by the kernel: every entry of the tables is in the set, and a hand is given for every
element.
-/
namespace Pokers.Kernel
open Spec

/-! ## The scores are in the set -/

/-- Is the bit set? -/
noncomputable def bitOf (M s : Nat) : Bool := Nat.beq (Nat.land (Nat.shiftRight M s) 1) 1

theorem bitOf_eq (M s : Nat) : bitOf M s = M.testBit s := by
  have e : bitOf M s = Nat.beq (Nat.land (M >>> s) 1) 1 := rfl
  have hl : Nat.land (M >>> s) 1 = M >>> s % 2 := Nat.and_one_is_mod _
  rw [e, hl, Nat.testBit_eq_decide_div_mod_eq, Nat.shiftRight_eq_div_pow, Bool.eq_iff_iff, Nat.beq_eq, decide_eq_true_iff]

noncomputable def leafIn (M left key : Nat) (_ : List Nat) : Bool :=
  @Nat.rec (fun _ => Bool) (force (fastLookup key) fun x => bitOf M x) (fun _ _ => true) left

noncomputable def leafFlushIn (M n m : Nat) (acc : List Nat) : Bool :=
  bif' (Nat.ble 5 (total acc)) (bif' (Nat.ble (total acc) n) (force (fastFlush m) fun x => bitOf M x) true) true

theorem score_in {M n : Nat} (h9 : n ≤ 9) (h1 : forCounts (leafIn M) ranksRev n 0 [] = true) (h2 : forBits (leafFlushIn M n) bitsRev 0 [] = true) {cs : List Nat}
    (h : IsCards cs) (hn : cs.length = n) : M.testBit (ofCards cs).evaluate = true := by
  rcases flush_cases cs with hno | ⟨s, hs, hf⟩
  · rw [evaluate_noflush h.2 hno, ← bitOf_eq]
    have := apply_check h1 h (by omega)
    rw [hn, Nat.sub_self] at this
    exact this
  · rw [evaluate_flush h (by omega) hs hf, ← bitOf_eq]
    have := apply_flush h2 cs s
    unfold leafFlushIn at this
    rw [total_eq, suitBits_sum h hs, bif'_imp, bif'_imp] at this
    exact this (Nat.ble_eq_true_of_le hf) (Nat.ble_eq_true_of_le (hn ▸ suitCnt_le_length cs s))

/-! ## A hand for each element -/

/-- The next `n` cards of `W` are different, in increasing order, and together with the cards before have the score `s`. -/
noncomputable def checkHand (s n : Nat) : Nat → Nat → Nat → Nat → Bool :=
  @Nat.rec (fun _ => Nat → Nat → Nat → Nat → Bool) (fun _ _ key mask => Nat.beq (ev key mask) s)
    (fun _ ih W low key mask => force (Nat.land W 63) fun c => bif' (Nat.ble low c) (bif' (Nat.ble c 51)
      (force (Nat.shiftRight W 6) fun W => force (Nat.add key (ck c)) fun key => force (Nat.lor mask (cm c)) fun mask =>
        ih W (Nat.succ c) key mask) false) false) n

theorem checkHand_sound (s : Nat) : ∀ (n W low : Nat) (cs : List Nat), (∀ c ∈ cs, c < 52) → (∀ c ∈ cs, c < low) → cs.Nodup → cs.length + n ≤ 12 →
    checkHand s n W low (ofCards cs).key (ofCards cs).mask = true →
    ∃ ds, ds.length = n ∧ IsCards (cs ++ ds) ∧ (ofCards (cs ++ ds)).evaluate = s := by
  intro n
  induction n with
  | zero =>
    intro W low cs h1 h2 h3 _ h
    refine ⟨[], rfl, by rw [List.append_nil]; exact ⟨h3, h1⟩, ?_⟩
    have h : Nat.beq (ev (ofCards cs).key (ofCards cs).mask) s = true := h
    rw [Nat.beq_eq, ev_eq] at h
    rw [List.append_nil]
    exact h
  | succ n ih =>
    intro W low cs h1 h2 h3 hl h
    have h : bif' (Nat.ble low (Nat.land W 63)) (bif' (Nat.ble (Nat.land W 63) 51)
      (checkHand s n (Nat.shiftRight W 6) (Nat.succ (Nat.land W 63)) ((ofCards cs).key + ck (Nat.land W 63)) ((ofCards cs).mask ||| cm (Nat.land W 63))) false)
      false = true := h
    rw [bif'_and, bif'_and, Bool.and_eq_true, Bool.and_eq_true] at h
    generalize Nat.land W 63 = c at h
    obtain ⟨k1, k2, k3⟩ := h
    have k1 := Nat.le_of_ble_eq_true k1
    have k2 := Nat.le_of_ble_eq_true k2
    rw [← key_append h1 (by omega) (by omega), ← mask_append] at k3
    obtain ⟨ds, d1, d2, d3⟩ := ih _ _ (cs ++ [c]) (by
        intro x hx
        rcases List.mem_append.1 hx with hx | hx
        · exact h1 x hx
        · rw [List.mem_singleton.1 hx]; omega) (by
        intro x hx
        rcases List.mem_append.1 hx with hx | hx
        · have := h2 x hx; omega
        · rw [List.mem_singleton.1 hx]; omega) (by
        rw [List.nodup_append]
        refine ⟨h3, List.nodup_singleton _, ?_⟩
        intro a ha b hb
        rw [List.mem_singleton.1 hb]
        have := h2 a ha
        omega) (by simp; omega) k3
    exact ⟨c :: ds, by simp [d1], by simpa using d2, by simpa using d3⟩

/-- Runs through the scores from `s` on; the hands are those of `W` from the bit `j` on, `size` bits each. -/
noncomputable def scanHands (n size M W fuel : Nat) : Nat → Nat → Bool :=
  @Nat.rec (fun _ => Nat → Nat → Bool) (fun _ _ => true)
    (fun _ ih s j => force s fun s => bif' (bitOf M s)
      (bif' (checkHand s n (Nat.land (Nat.shiftRight W j) (Nat.sub (Nat.pow 2 size) 1)) 0 Hand.default.key Hand.default.mask)
        (force (Nat.add j size) fun j => ih (Nat.succ s) j) false) (ih (Nat.succ s) j)) fuel

theorem scanHands_sound {n size M W : Nat} (hn : n ≤ 12) : ∀ (fuel s j : Nat), scanHands n size M W fuel s j = true →
    ∀ i < fuel, M.testBit (s + i) = true → ∃ cs, IsCards cs ∧ cs.length = n ∧ (ofCards cs).evaluate = s + i := by
  intro fuel
  induction fuel with
  | zero => intro s j _ i hi; omega
  | succ fuel ih =>
    intro s j h i hi hb
    have h : bif' (bitOf M s) (bif' (checkHand s n (Nat.land (Nat.shiftRight W j) (Nat.sub (Nat.pow 2 size) 1)) 0 Hand.default.key Hand.default.mask)
        (scanHands n size M W fuel (s + 1) (j + size)) false) (scanHands n size M W fuel (s + 1) j) = true := h
    have step : ∀ j', scanHands n size M W fuel (s + 1) j' = true → i ≠ 0 → ∃ cs, IsCards cs ∧ cs.length = n ∧ (ofCards cs).evaluate = s + i := by
      intro j' h' h0
      obtain ⟨k, rfl⟩ : ∃ k, i = k + 1 := ⟨i - 1, by omega⟩
      rw [show s + (k + 1) = s + 1 + k by omega] at hb ⊢
      exact ih (s + 1) j' h' k (by omega) hb
    rw [bitOf_eq] at h
    cases hM : M.testBit s with
    | true =>
      rw [hM, bif'_true, bif'_and, Bool.and_eq_true] at h
      rcases Nat.eq_zero_or_pos i with rfl | hi0
      · obtain ⟨ds, d1, d2, d3⟩ := checkHand_sound s n _ 0 [] (by simp) (by simp) List.nodup_nil (by simpa using hn) h.1
        exact ⟨ds, by simpa using d2, d1, by simpa using d3⟩
      · exact step _ h.2 (by omega)
    | false =>
      rw [hM, bif'_false] at h
      refine step _ h ?_
      rintro rfl
      rw [Nat.add_zero, hM] at hb
      cases hb

/-! ## Counting the bits -/

noncomputable def countBits (M fuel : Nat) : Nat → Nat → Nat :=
  @Nat.rec (fun _ => Nat → Nat → Nat) (fun _ acc => acc)
    (fun _ ih s acc => force s fun s => force (bif' (bitOf M s) (Nat.succ acc) acc) fun acc => ih (Nat.succ s) acc) fuel

theorem countBits_eq (M : Nat) : ∀ fuel s acc, countBits M fuel s acc = acc + ((Finset.range fuel).filter fun i => M.testBit (s + i) = true).card := by
  intro fuel
  induction fuel with
  | zero => intro s acc; simp [countBits]
  | succ fuel ih =>
    intro s acc
    have e : countBits M (fuel + 1) s acc = countBits M fuel (s + 1) (bif' (bitOf M s) (acc + 1) acc) := rfl
    rw [e, ih, bitOf_eq]
    have h1 : ((Finset.range (fuel + 1)).filter fun i => M.testBit (s + i) = true).card = (if M.testBit s = true then 1 else 0) +
        ((Finset.range fuel).filter fun i => M.testBit (s + 1 + i) = true).card := by
      rw [Finset.card_filter, Finset.card_filter, Finset.sum_range_succ', Nat.add_comm]
      congr 1
      apply Finset.sum_congr rfl
      intro i _
      rw [show s + (i + 1) = s + 1 + i by omega]
    rw [h1]
    cases M.testBit s
    · simp
    · have e2 : bif' true (acc + 1) acc = acc + 1 := rfl
      rw [e2]; simp only [if_true]; omega

/-- `M` is the set of the scores of all hands of `n` cards. -/
structure ScoreSet (n M : Nat) : Prop where
  small : ∀ s, M.testBit s = true → s < 36875
  mem : ∀ s, M.testBit s = true ↔ ∃ cs, IsCards cs ∧ cs.length = n ∧ (ofCards cs).evaluate = s

theorem ScoreSet.of_checks {n M W size : Nat} (h9 : n ≤ 9) (h0 : Nat.beq (Nat.shiftRight M 36875) 0 = true) (h1 : forCounts (leafIn M) ranksRev n 0 [] = true)
    (h2 : forBits (leafFlushIn M n) bitsRev 0 [] = true) (h3 : scanHands n size M W 36875 0 0 = true) : ScoreSet n M := by
  have hs : ∀ s, M.testBit s = true → s < 36875 := by
    intro s hb
    by_contra hc
    have h0 : M >>> 36875 = 0 := by rwa [Nat.beq_eq] at h0
    have := congrArg (Nat.testBit · (s - 36875)) h0
    simp only [Nat.testBit_shiftRight, Nat.zero_testBit] at this
    rw [show 36875 + (s - 36875) = s by omega, hb] at this
    cases this
  refine ⟨hs, fun s => ⟨fun hb => ?_, ?_⟩⟩
  · obtain ⟨cs, c1, c2, c3⟩ := scanHands_sound (by omega) _ _ _ h3 s (hs s hb) (by rwa [Nat.zero_add])
    exact ⟨cs, c1, c2, by rw [c3]; omega⟩
  · rintro ⟨cs, c1, c2, rfl⟩
    exact score_in h9 h1 h2 c1 c2

set_option maxRecDepth 200000

end Pokers.Kernel
