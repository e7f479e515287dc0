import Verif.Proofs.RangeAdd
import Mathlib.Tactic.Linarith
/-! The range parser: termination, bounds, well-formed results, and what it does on well-formed texts. -/
namespace Pokers
open Spec

/-- The text contains ten consecutive decimal digits. -/
def LongRun (cv : List Char) : Prop := ∃ j, ∀ k < 10, ∃ c, cv[j + k]? = some c ∧ (toDigit c).isSome

/-- The buffer ends with a space (pushed by `from_string`). -/
def Ends (cv : List Char) : Prop := ∃ l, cv = l ++ [' ']

theorem Ends.lt {cv : List Char} (h : Ends cv) {i : Nat} {c : Char} (hc : cv[i]? = some c) (hne : c ≠ ' ') : i + 1 < cv.length := by
  obtain ⟨l, rfl⟩ := h
  rw [List.length_append, List.length_singleton]
  rw [List.getElem?_append] at hc
  split at hc
  · omega
  · rw [List.getElem?_singleton] at hc
    split at hc
    · simp only [Option.some.injEq] at hc; exact absurd hc.symm hne
    · cases hc

theorem charAt_ok {cv : List Char} {i : Nat} (h : i < cv.length) : ∃ c, cv[i]? = some c ∧ charAt cv i = .ok c := by
  refine ⟨cv[i], List.getElem?_eq_getElem h, ?_⟩
  unfold charAt
  rw [List.getElem?_eq_getElem h]

theorem parseChar_spec {cv : List Char} (he : Ends cv) {i : Nat} (h : i < cv.length) {c : Char} (hc : c ≠ ' ') :
    parseChar cv i c = .ok (false, i) ∨ (parseChar cv i c = .ok (true, i + 1) ∧ i + 1 < cv.length) := by
  obtain ⟨d, hd, hat⟩ := charAt_ok h
  unfold parseChar
  rw [hat]
  by_cases hdc : d = c
  · right
    refine ⟨?_, he.lt hd (hdc ▸ hc)⟩
    simp [bind, Except.bind, pure, Except.pure, hdc]
  · left
    simp [bind, Except.bind, pure, Except.pure, hdc]

theorem ite_ind {α : Sort _} {P : α → Prop} {c : Prop} [Decidable c] {a b : α} (ha : P a) (hb : P b) : P (if c then a else b) := by
  split
  · exact ha
  · exact hb

theorem charToRank_cases (c : Char) : charToRank c = 255 ∨ (charToRank c < 13 ∧ c ≠ ' ') := by
  by_cases h : c = ' '
  · left; rw [h]; decide
  · unfold charToRank
    iterate 13 (refine ite_ind (P := fun n => n = 255 ∨ (n < 13 ∧ c ≠ ' ')) (Or.inr ⟨by norm_num, h⟩) ?_)
    exact Or.inl rfl

theorem charToSuit_cases (c : Char) : charToSuit c = 255 ∨ (charToSuit c < 4 ∧ c ≠ ' ') := by
  by_cases h : c = ' '
  · left; rw [h]; decide
  · unfold charToSuit
    iterate 4 (refine ite_ind (P := fun n => n = 255 ∨ (n < 4 ∧ c ≠ ' ')) (Or.inr ⟨by norm_num, h⟩) ?_)
    exact Or.inl rfl

theorem parseRank_spec {cv : List Char} (he : Ends cv) {i : Nat} (h : i < cv.length) :
    parseRank cv i = .ok (false, i, 255) ∨ (∃ r, r < 13 ∧ parseRank cv i = .ok (true, i + 1, r) ∧ i + 1 < cv.length) := by
  obtain ⟨d, hd, hat⟩ := charAt_ok h
  unfold parseRank
  rw [hat]
  rcases charToRank_cases d with hr | ⟨hr, hne⟩
  · left
    simp [bind, Except.bind, pure, Except.pure, hr]
  · right
    refine ⟨charToRank d, hr, ?_, he.lt hd hne⟩
    simp [bind, Except.bind, pure, Except.pure, show charToRank d ≠ 255 by omega]

theorem parseSuit_spec {cv : List Char} (he : Ends cv) {i : Nat} (h : i < cv.length) :
    parseSuit cv i = .ok (false, i, 255) ∨ (∃ r, r < 4 ∧ parseSuit cv i = .ok (true, i + 1, r) ∧ i + 1 < cv.length) := by
  obtain ⟨d, hd, hat⟩ := charAt_ok h
  unfold parseSuit
  rw [hat]
  rcases charToSuit_cases d with hr | ⟨hr, hne⟩
  · left
    simp [bind, Except.bind, pure, Except.pure, hr]
  · right
    refine ⟨charToSuit d, hr, ?_, he.lt hd hne⟩
    simp [bind, Except.bind, pure, Except.pure, show charToSuit d ≠ 255 by omega]

theorem toDigit_lt {c : Char} {d : Nat} (h : toDigit c = some d) : d < 10 ∧ c ≠ ' ' := by
  unfold toDigit at h
  split_ifs at h with hc
  simp only [Option.some.injEq] at h
  obtain ⟨h1, h2⟩ := hc
  have e2 : c.toNat ≤ '9'.toNat := h2
  have e1 : '0'.toNat ≤ c.toNat := h1
  rw [show '9'.toNat = 57 from rfl] at e2
  rw [show '0'.toNat = 48 from rfl] at h e1
  refine ⟨by omega, ?_⟩
  rintro rfl
  rw [show ' '.toNat = 32 from rfl] at e1
  omega

theorem parseWeightLoop_spec {cv : List Char} (he : Ends cv) {b w : Nat} (hb : b < cv.length) (hw : w ≤ 100) (fuel : Nat) :
    ∀ i number, i < cv.length → cv.length < i + fuel → b ≤ i → number < 10 ^ (i - b) →
      (∀ k, b ≤ k → k < i → ∃ c, cv[k]? = some c ∧ (toDigit c).isSome) →
      (∃ ok j v, parseWeightLoop cv b w fuel i number = .ok (ok, j, v) ∧ b ≤ j ∧ j < cv.length ∧ v ≤ 100) ∨
      (parseWeightLoop cv b w fuel i number = .error .overflow ∧ LongRun cv) := by
  induction fuel with
  | zero => intro i number h1 h2; omega
  | succ fuel ih =>
    intro i number hi hf hbi hn hdig
    obtain ⟨d, hd, hat⟩ := charAt_ok hi
    rw [parseWeightLoop]
    simp only [hat, bind, Except.bind]
    cases hdd : toDigit d with
    | none =>
      left
      simp only
      split_ifs
      · exact ⟨_, _, _, rfl, le_refl _, hb, hw⟩
      · exact ⟨_, _, _, rfl, hbi, hi, by omega⟩
    | some num =>
      simp only
      have hnum := toDigit_lt hdd
      have hpow : number * 10 + num < 10 ^ (i + 1 - b) := by
        rw [show i + 1 - b = (i - b) + 1 by omega, pow_succ]
        omega
      have hdig' : ∀ k, b ≤ k → k < i + 1 → ∃ c, cv[k]? = some c ∧ (toDigit c).isSome := by
        intro k hk1 hk2
        rcases Nat.lt_or_ge k i with h | h
        · exact hdig k hk1 h
        · have : k = i := by omega
          subst this
          exact ⟨d, hd, by rw [hdd]; rfl⟩
      have hlong : 2 ^ 32 ≤ number * 10 + num → LongRun cv := by
        intro hov
        refine ⟨b, fun k hk => hdig' _ (by omega) ?_⟩
        have : ¬ i + 1 - b ≤ 9 := by
          intro hle
          have : 10 ^ (i + 1 - b) ≤ 10 ^ 9 := Nat.pow_le_pow_right (by norm_num) hle
          omega
        omega
      split_ifs with h1 h2
      · exact ih (i + 1) _ (he.lt hd hnum.2) (by omega) (by omega) hpow hdig'
      · exact Or.inr ⟨rfl, hlong (by omega)⟩
      · exact Or.inr ⟨rfl, hlong (by omega)⟩

theorem parseAtWeight_spec {cv : List Char} (he : Ends cv) {i : Nat} (h : i < cv.length) :
    (∃ j w, parseAtWeight cv i 100 = .ok (j, w) ∧ i ≤ j ∧ j < cv.length ∧ w ≤ 100) ∨
    (parseAtWeight cv i 100 = .error .overflow ∧ LongRun cv) := by
  unfold parseAtWeight
  rcases parseChar_spec he h (c := '@') (by decide) with hc | ⟨hc, hlt⟩
  · left
    refine ⟨i, 100, ?_, le_refl _, h, le_refl _⟩
    simp [hc, bind, Except.bind, pure, Except.pure]
  · have := parseWeightLoop_spec he hlt (le_refl 100) (cv.length + 1) (i + 1) 0 hlt (by omega) (le_refl _) (by simp)
      (fun k h1 h2 => by omega)
    rcases this with ⟨ok, j, v, hp, h1, h2, h3⟩ | ⟨hp, hl⟩
    · left
      refine ⟨j, v, ?_, by omega, h2, h3⟩
      simp [hc, bind, Except.bind, pure, Except.pure, parseWeight, hp]
    · right
      refine ⟨?_, hl⟩
      simp [hc, bind, Except.bind, parseWeight, hp]

theorem parseCombosDash_spec {cv : List Char} (he : Ends cv) {i : Nat} (h : i < cv.length) (r1 r2 : Nat) (s o : Bool) :
    ∃ ok j r3 r4, parseCombosDash cv r1 r2 s o i = .ok (ok, j, r3, r4) ∧
      (ok = true → i < j ∧ j < cv.length ∧ r3 < 13 ∧ r4 < 13) := by
  unfold parseCombosDash
  rcases parseRank_spec he h with h1 | ⟨r3, hr3, h1, hl1⟩
  · refine ⟨false, i, 255, 255, ?_, by simp⟩
    simp [h1, bind, Except.bind, pure, Except.pure]
  rcases parseRank_spec he hl1 with h2 | ⟨r4, hr4, h2, hl2⟩
  · refine ⟨false, i + 1, r3, 255, ?_, by simp⟩
    simp [h1, h2, bind, Except.bind, pure, Except.pure]
  have h3 : ∃ b j, parseChar cv (i + 1 + 1) 'o' = .ok (b, j) ∧ i + 1 + 1 ≤ j ∧ j < cv.length := by
    rcases parseChar_spec he hl2 (c := 'o') (by decide) with h3 | ⟨h3, hl3⟩
    · exact ⟨_, _, h3, le_refl _, hl2⟩
    · exact ⟨_, _, h3, by omega, hl3⟩
  obtain ⟨b, j, h3, hj1, hj2⟩ := h3
  have h4 : ∃ b' j', parseChar cv j 's' = .ok (b', j') ∧ j ≤ j' ∧ j' < cv.length := by
    rcases parseChar_spec he hj2 (c := 's') (by decide) with h4 | ⟨h4, hl4⟩
    · exact ⟨_, _, h4, le_refl _, hj2⟩
    · exact ⟨_, _, h4, by omega, hl4⟩
  obtain ⟨b', j', h4, hj3, hj4⟩ := h4
  simp only [h1, h2, h3, h4, bind, Except.bind, pure, Except.pure, Bool.not_true, Bool.false_eq_true, if_false]
  split_ifs <;> exact ⟨_, _, _, _, rfl, fun _ => ⟨by omega, by omega, hr3, hr4⟩⟩

theorem parseSuffix_spec {cv : List Char} (he : Ends cv) {i : Nat} (h : i < cv.length) :
    ∃ s o j, parseSuffix cv i = .ok (s, o, j) ∧ i ≤ j ∧ j < cv.length := by
  unfold parseSuffix
  rcases parseChar_spec he h (c := 'o') (by decide) with h1 | ⟨h1, hl1⟩
  · rcases parseChar_spec he h (c := 's') (by decide) with h2 | ⟨h2, hl2⟩
    · exact ⟨_, _, _, by simp only [h1, h2, bind, Except.bind, pure, Except.pure]; rfl, le_refl _, h⟩
    · exact ⟨_, _, _, by simp only [h1, h2, bind, Except.bind, pure, Except.pure]; rfl, by omega, hl2⟩
  · exact ⟨_, _, _, by simp only [h1, bind, Except.bind, pure, Except.pure]; rfl, by omega, hl1⟩

/-- Two different cards, the higher one first, and a weight in percent. -/
def WellFormed (c : Combo) : Prop := c.c2 < c.c1 ∧ c.c1 < 52 ∧ c.w ≤ 100

theorem wf_oneCombo {c : Combo} {x y w : Nat} (hw : w ≤ 100) (h : c ∈ oneCombo x y w) : WellFormed c := by
  rw [mem_oneCombo] at h
  exact ⟨h.2.1, h.2.2.1, by omega⟩

theorem wf_theCombos {c : Combo} {x y w : Nat} {s o : Bool} (hw : w ≤ 100) (h : c ∈ theCombos x y s o w) : WellFormed c := by
  rw [mem_theCombos] at h
  exact ⟨h.2.1, h.2.2.1, by omega⟩

theorem wf_flat {c : Combo} {w : Nat} {l : List Nat} {f g : Nat → Nat} {s o : Bool} (hw : w ≤ 100)
    (h : c ∈ l.flatMap (fun r => theCombos (f r) (g r) s o w)) : WellFormed c := by
  rw [List.mem_flatMap] at h
  obtain ⟨r, _, hr⟩ := h
  exact wf_theCombos hw hr

theorem wf_dash {c : Combo} {w : Nat} {a b d e : Nat} {s o : Bool} (hw : w ≤ 100)
    (h : c ∈ dashCombos a b d e s o w) : WellFormed c := by
  unfold dashCombos at h
  split_ifs at h
  · exact wf_flat (f := fun r => r) (g := fun r => r) hw h
  · exact wf_flat (f := fun _ => a) (g := fun r => r) hw h
  · exact wf_flat (f := fun _ => a) (g := fun r => r) hw h
  · exact wf_flat (f := fun _ => b) (g := fun r => r) hw h
  · exact wf_flat (f := fun _ => b) (g := fun r => r) hw h
  · simp at h

theorem parseHand_spec {cv : List Char} (he : Ends cv) {i : Nat} (h : i < cv.length) (hands : List Combo) :
    parseHand cv i hands = .ok (false, i, hands) ∨
    (∃ j new, parseHand cv i hands = .ok (true, j, hands ++ new) ∧ i < j ∧ j < cv.length ∧ ∀ c ∈ new, WellFormed c) ∨
    (parseHand cv i hands = .error .overflow ∧ LongRun cv) := by
  unfold parseHand
  rcases parseRank_spec he h with h1 | ⟨r1, hr1, h1, hl1⟩
  · left
    simp [h1, bind, Except.bind, pure, Except.pure]
  rcases parseSuit_spec he hl1 with h2 | ⟨s1, hs1, h2, hl2⟩
  · -- no explicit suits
    rcases parseRank_spec he hl1 with h3 | ⟨r2, hr2, h3, hl3⟩
    · left
      simp [h1, h2, h3, bind, Except.bind, pure, Except.pure]
    obtain ⟨s, o, j2, h4, hj1, hj2'⟩ := parseSuffix_spec he hl3
    rcases parseChar_spec he hj2' (c := '+') (by decide) with h6 | ⟨h6, hl6⟩
    · rcases parseChar_spec he hj2' (c := '-') (by decide) with h7 | ⟨h7, hl7⟩
      · rcases parseAtWeight_spec he hj2' with ⟨j, w, h8, hj, hj', hw⟩ | ⟨h8, hl8⟩
        · right; left
          refine ⟨j, theCombos r1 r2 s o w, ?_, by omega, hj', fun c hc => wf_theCombos hw hc⟩
          rw [← addCombos_eq]
          simp [bind, Except.bind, pure, Except.pure, h1, h2, h3, h4, h6, h7, h8]
        · right; right
          refine ⟨?_, hl8⟩
          simp [bind, Except.bind, h1, h2, h3, h4, h6, h7, h8]
      · obtain ⟨ok, j, r3, r4, h8, hok⟩ := parseCombosDash_spec he hl7 r1 r2 s o
        cases ok
        · left
          simp [bind, Except.bind, pure, Except.pure, h1, h2, h3, h4, h6, h7, h8]
        · obtain ⟨hj, hj', hr3, hr4⟩ := hok rfl
          rcases parseAtWeight_spec he hj' with ⟨j', w, h9, hj9, hj9', hw⟩ | ⟨h9, hl9⟩
          · right; left
            refine ⟨j', dashCombos r1 r2 r3 r4 s o w, ?_, by omega, hj9', fun c hc => wf_dash hw hc⟩
            rw [← addCombosDash_eq]
            simp [bind, Except.bind, pure, Except.pure, h1, h2, h3, h4, h6, h7, h8, h9]
          · right; right
            refine ⟨?_, hl9⟩
            simp [bind, Except.bind, h1, h2, h3, h4, h6, h7, h8, h9]
    · rcases parseAtWeight_spec he hl6 with ⟨j, w, h8, hj, hj', hw⟩ | ⟨h8, hl8⟩
      · right; left
        refine ⟨j, (if r1 = r2 then (rangeEx r1 13).flatMap (fun r => theCombos r r s o w)
          else (rangeEx r2 r1).flatMap (fun r => theCombos r1 r s o w)), ?_, by omega, hj', fun c hc => ?_⟩
        · rw [← addCombosPlus_eq]
          simp [bind, Except.bind, pure, Except.pure, h1, h2, h3, h4, h6, h8]
        · split_ifs at hc
          · exact wf_flat (f := fun r => r) (g := fun r => r) hw hc
          · exact wf_flat (f := fun _ => r1) (g := fun r => r) hw hc
      · right; right
        refine ⟨?_, hl8⟩
        simp [bind, Except.bind, h1, h2, h3, h4, h6, h8]
  · -- explicit suits
    rcases parseRank_spec he hl2 with h3 | ⟨r2, hr2, h3, hl3⟩
    · left
      simp [h1, h2, h3, bind, Except.bind, pure, Except.pure]
    rcases parseSuit_spec he hl3 with h4 | ⟨s2, hs2, h4, hl4⟩
    · left
      simp [h1, h2, h3, h4, bind, Except.bind, pure, Except.pure]
    by_cases hcc : 4 * r1 + s1 = 4 * r2 + s2
    · left
      simp [h1, h2, h3, h4, hcc, bind, Except.bind, pure, Except.pure]
    · rcases parseAtWeight_spec he hl4 with ⟨j, w, h8, hj, hj', hw⟩ | ⟨h8, hl8⟩
      · right; left
        refine ⟨j, oneCombo (4 * r1 + s1) (4 * r2 + s2) w, ?_, by omega, hj', fun c hc => wf_oneCombo hw hc⟩
        rw [← addCombo_eq]
        simp [h1, h2, h3, h4, h8, hcc, bind, Except.bind, pure, Except.pure]
      · right; right
        refine ⟨?_, hl8⟩
        simp [h1, h2, h3, h4, h8, hcc, bind, Except.bind]

theorem parseLoop_spec {cv : List Char} (he : Ends cv) (fuel : Nat) : ∀ i hands, i < cv.length → cv.length < i + fuel →
    (∀ c ∈ hands, WellFormed c) →
    (∃ res, parseLoop cv fuel i hands = .ok res ∧ ∀ c ∈ res, WellFormed c) ∨
    (parseLoop cv fuel i hands = .error .overflow ∧ LongRun cv) := by
  induction fuel with
  | zero => intro i hands h1 h2; omega
  | succ fuel ih =>
    intro i hands hi hf hwf
    rw [parseLoop]
    rcases parseHand_spec he hi hands with h | ⟨j, new, h, hij, hj, hn⟩ | ⟨h, hl⟩
    · left
      exact ⟨hands, by simp [h, bind, Except.bind, pure, Except.pure], hwf⟩
    · have hwf' : ∀ c ∈ hands ++ new, WellFormed c := by
        intro c hc
        rcases List.mem_append.1 hc with hc | hc
        · exact hwf c hc
        · exact hn c hc
      rcases parseChar_spec he hj (c := ',') (by decide) with h2 | ⟨h2, hl2⟩
      · left
        exact ⟨hands ++ new, by simp [h, h2, bind, Except.bind, pure, Except.pure], hwf'⟩
      · have := ih (j + 1) (hands ++ new) hl2 (by omega) hwf'
        simpa [h, h2, bind, Except.bind, pure, Except.pure] using this
    · right
      exact ⟨by simp [h, bind, Except.bind], hl⟩

end Pokers
