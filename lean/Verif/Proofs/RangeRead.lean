import Verif.Proofs.RangeText
import Verif.Spec.Reading
/-! What the parser does on arbitrary texts. -/
namespace Pokers
open Spec

theorem ite_cond {α : Sort _} {P : α → Prop} {c : Prop} [Decidable c] {a b : α} (ha : c → P a) (hb : P b) : P (if c then a else b) := by
  split
  · exact ha ‹_›
  · exact hb

theorem charToRank_letters (c : Char) : charToRank c = 255 ∨ ∃ r < 13, c = rankLetter r := by
  unfold charToRank
  let P : Nat → Prop := fun n => n = 255 ∨ ∃ r < 13, c = rankLetter r
  refine ite_cond (P := P) (fun h => Or.inr ⟨12, by decide, h⟩) ?_
  refine ite_cond (P := P) (fun h => Or.inr ⟨11, by decide, h⟩) ?_
  refine ite_cond (P := P) (fun h => Or.inr ⟨10, by decide, h⟩) ?_
  refine ite_cond (P := P) (fun h => Or.inr ⟨9, by decide, h⟩) ?_
  refine ite_cond (P := P) (fun h => Or.inr ⟨8, by decide, h⟩) ?_
  refine ite_cond (P := P) (fun h => Or.inr ⟨7, by decide, h⟩) ?_
  refine ite_cond (P := P) (fun h => Or.inr ⟨6, by decide, h⟩) ?_
  refine ite_cond (P := P) (fun h => Or.inr ⟨5, by decide, h⟩) ?_
  refine ite_cond (P := P) (fun h => Or.inr ⟨4, by decide, h⟩) ?_
  refine ite_cond (P := P) (fun h => Or.inr ⟨3, by decide, h⟩) ?_
  refine ite_cond (P := P) (fun h => Or.inr ⟨2, by decide, h⟩) ?_
  refine ite_cond (P := P) (fun h => Or.inr ⟨1, by decide, h⟩) ?_
  refine ite_cond (P := P) (fun h => Or.inr ⟨0, by decide, h⟩) ?_
  exact Or.inl rfl

theorem charToSuit_letters (c : Char) : charToSuit c = 255 ∨ ∃ s < 4, c = suitLetter s := by
  unfold charToSuit
  let P : Nat → Prop := fun n => n = 255 ∨ ∃ s < 4, c = suitLetter s
  refine ite_cond (P := P) (fun h => Or.inr ⟨0, by decide, h⟩) ?_
  refine ite_cond (P := P) (fun h => Or.inr ⟨1, by decide, h⟩) ?_
  refine ite_cond (P := P) (fun h => Or.inr ⟨2, by decide, h⟩) ?_
  refine ite_cond (P := P) (fun h => Or.inr ⟨3, by decide, h⟩) ?_
  exact Or.inl rfl

theorem toDigit_letters {c : Char} {d : Nat} (h : toDigit c = some d) : d < 10 ∧ c = digitChar d := by
  refine ⟨(toDigit_lt h).1, ?_⟩
  unfold toDigit at h
  split_ifs at h with hc
  simp only [Option.some.injEq] at h
  obtain ⟨h1, h2⟩ := hc
  have e2 : c.toNat ≤ '9'.toNat := h2
  have e1 : '0'.toNat ≤ c.toNat := h1
  rw [show '9'.toNat = 57 from rfl] at e2
  rw [show '0'.toNat = 48 from rfl] at h e1
  have hc : c = Char.ofNat c.toNat := (Char.ofNat_toNat c).symm
  have : c.toNat = d + 48 := by omega
  rw [hc, this]
  have hd : d < 10 := by omega
  have key : ∀ d < 10, Char.ofNat (d + 48) = digitChar d := by decide
  exact key d hd

variable {cv : List Char} {i : Nat} {l : List Char}

theorem next_hit {c : Char} (h : cv.drop i = l ++ [' ']) (hb : Begins c l) :
    ∃ l', l = c :: l' ∧ parseChar cv i c = .ok (true, i + 1) ∧ cv.drop (i + 1) = l' ++ [' '] := by
  cases l with
  | nil => cases hb
  | cons d l' =>
    obtain rfl : d = c := Option.some.inj hb
    exact ⟨l', rfl, parseChar_hit h, (charAt_drop h).2⟩

theorem next_miss {c : Char} (h : cv.drop i = l ++ [' ']) (hc : c ≠ ' ') (hb : ¬ Begins c l) : parseChar cv i c = .ok (false, i) := by
  cases l with
  | nil => exact parseChar_miss h hc.symm
  | cons d l' => exact parseChar_miss h (fun e => hb (by rw [e]; rfl))

theorem rank_cases (h : cv.drop i = l ++ [' ']) :
    (∃ r l', r < 13 ∧ l = rankLetter r :: l' ∧ parseRank cv i = .ok (true, i + 1, r) ∧ cv.drop (i + 1) = l' ++ [' ']) ∨
    parseRank cv i = .ok (false, i, 255) := by
  cases l with
  | nil =>
    right
    unfold parseRank
    simp [(charAt_drop h).1, bind, Except.bind, pure, Except.pure, show charToRank ' ' = 255 by decide]
  | cons c l' =>
    rcases charToRank_letters c with hc | ⟨r, hr, rfl⟩
    · right
      unfold parseRank
      simp [(charAt_drop h).1, bind, Except.bind, pure, Except.pure, hc]
    · exact Or.inl ⟨r, l', hr, rfl, parseRank_hit hr h, (charAt_drop h).2⟩

theorem suit_cases (h : cv.drop i = l ++ [' ']) :
    (∃ s l', s < 4 ∧ l = suitLetter s :: l' ∧ parseSuit cv i = .ok (true, i + 1, s) ∧ cv.drop (i + 1) = l' ++ [' ']) ∨
    parseSuit cv i = .ok (false, i, 255) := by
  cases l with
  | nil =>
    right
    unfold parseSuit
    simp [(charAt_drop h).1, bind, Except.bind, pure, Except.pure, show charToSuit ' ' = 255 by decide]
  | cons c l' =>
    rcases charToSuit_letters c with hc | ⟨r, hr, rfl⟩
    · right
      unfold parseSuit
      simp [(charAt_drop h).1, bind, Except.bind, pure, Except.pure, hc]
    · exact Or.inl ⟨r, l', hr, rfl, parseSuit_hit hr h, (charAt_drop h).2⟩

/-! ## Weights -/

/-- Every text is a number of digits and something else. -/
theorem split_digits (l : List Char) : ∃ (ds : List Nat) (rest : List Char), l = ds.map digitChar ++ rest ∧ (∀ d ∈ ds, d < 10) ∧ ¬ BeginsDigit rest := by
  induction l with
  | nil => exact ⟨[], [], rfl, by simp, fun ⟨d, _, h⟩ => by cases h⟩
  | cons c l ih =>
    cases hc : toDigit c with
    | none =>
      refine ⟨[], c :: l, rfl, by simp, ?_⟩
      rintro ⟨d, hd, hb⟩
      rw [Option.some.inj hb, toDigit_digit hd] at hc
      cases hc
    | some d =>
      obtain ⟨hd, rfl⟩ := toDigit_letters hc
      obtain ⟨ds, rest, rfl, h1, h2⟩ := ih
      refine ⟨d :: ds, rest, rfl, ?_, h2⟩
      intro x hx
      rcases List.mem_cons.1 hx with rfl | hx
      · exact hd
      · exact h1 x hx

theorem toDigit_none {c : Char} {l : List Char} (h : ¬ BeginsDigit (c :: l)) : toDigit c = none := by
  cases hc : toDigit c with
  | none => rfl
  | some d =>
    obtain ⟨hd, rfl⟩ := toDigit_letters hc
    exact absurd ⟨d, hd, rfl⟩ h

theorem notDigit_space {rest : List Char} (h : ¬ BeginsDigit rest) : ∃ c r, rest ++ [' '] = c :: r ∧ toDigit c = none := by
  cases rest with
  | nil => exact ⟨' ', [], rfl, by decide⟩
  | cons c r => exact ⟨c, r ++ [' '], rfl, toDigit_none h⟩

theorem weightLoop_digits {b w : Nat} (ds : List Nat) : ∀ (fuel i number : Nat) (rest : List Char) (x : Bool × Nat × Nat), (∀ d ∈ ds, d < 10) →
    cv.drop i = ds.map digitChar ++ (rest ++ [' ']) → ¬ BeginsDigit rest → parseWeightLoop cv b w fuel i number = .ok x →
    x = (if 100 < ds.foldl (fun n d => n * 10 + d) number then (false, b, w) else (true, i + ds.length, ds.foldl (fun n d => n * 10 + d) number)) ∧
      cv.drop (i + ds.length) = rest ++ [' '] := by
  induction ds with
  | nil =>
    intro fuel i number rest x _ hd hr hx
    cases fuel with
    | zero => cases hx
    | succ fuel =>
      rw [List.map_nil, List.nil_append] at hd
      obtain ⟨c, r, e, hc⟩ := notDigit_space hr
      rw [e] at hd
      rw [parseWeightLoop] at hx
      simp only [(charAt_drop hd).1, bind, Except.bind, hc] at hx
      refine ⟨?_, hd.trans e.symm⟩
      show x = if 100 < number then (false, b, w) else (true, i, number)
      by_cases h1 : 100 < number
      · rw [if_pos h1] at hx ⊢
        exact (Except.ok.inj hx).symm
      · rw [if_neg h1] at hx ⊢
        rw [← Except.ok.inj hx, Nat.mod_eq_of_lt (by omega)]
  | cons d ds ih =>
    intro fuel i number rest x hds hd hr hx
    cases fuel with
    | zero => cases hx
    | succ fuel =>
      rw [List.map_cons, List.cons_append] at hd
      obtain ⟨hc, hd'⟩ := charAt_drop hd
      rw [parseWeightLoop] at hx
      simp only [hc, bind, Except.bind, toDigit_digit (hds d (by simp))] at hx
      split_ifs at hx
      have := ih fuel (i + 1) (number * 10 + d) rest x (fun y hy => hds y (by simp [hy])) hd' hr hx
      rw [List.foldl_cons, List.length_cons, show i + (ds.length + 1) = i + 1 + ds.length by omega]
      exact this

/-- The cursor `j` stands before `rest`, or inside of something that cannot be read. -/
def After (cv : List Char) (j : Nat) (rest : List Char) : Prop :=
  cv.drop j = rest ++ [' '] ∨ (Begins '@' rest ∧ ∃ c r, cv.drop j = c :: r ∧ c ≠ ',')

theorem After.comma {j : Nat} {rest : List Char} (h : After cv j rest) :
    (¬ Begins ',' rest → parseChar cv j ',' = .ok (false, j)) ∧
    (∀ r, rest = ',' :: r → parseChar cv j ',' = .ok (true, j + 1) ∧ cv.drop (j + 1) = r ++ [' ']) := by
  rcases h with h | ⟨h1, c, r, h2, h3⟩
  · refine ⟨fun hb => next_miss h (by decide) hb, ?_⟩
    rintro r rfl
    exact ⟨parseChar_hit h, (charAt_drop h).2⟩
  · refine ⟨fun _ => parseChar_miss h2 h3, ?_⟩
    rintro r rfl
    exact absurd (Option.some.inj h1) (by decide)

theorem weight_complete {wt : Option (List Nat)} {rest : List Char} (hv : ∀ ds, wt = some ds → (∀ d ∈ ds, d < 10) ∧ decimal ds ≤ 100)
    (hf : WeightFollowed wt rest) (hd : cv.drop i = weightLetters wt ++ rest ++ [' ']) {x : Nat × Nat}
    (hx : parseAtWeight cv i 100 = .ok x) : x.2 = percentOf wt ∧ After cv x.1 rest := by
  unfold parseAtWeight at hx
  cases wt with
  | none =>
    rw [weightLetters, List.nil_append] at hd
    rcases hf with hf | ⟨ds, r, rfl, h1, h2, h3⟩
    · simp only [next_miss hd (by decide) hf, bind, Except.bind, pure, Except.pure] at hx
      injection hx with hx
      rw [← hx]
      exact ⟨rfl, Or.inl hd⟩
    · obtain ⟨_, hd'⟩ := charAt_drop hd
      simp only [parseChar_hit hd, bind, Except.bind, pure, Except.pure, parseWeight] at hx
      cases hw : parseWeightLoop cv (i + 1) 100 (cv.length + 1) (i + 1) 0 with
      | error e => rw [hw] at hx; cases hx
      | ok y =>
        rw [hw] at hx
        obtain ⟨e, _⟩ := weightLoop_digits ds (cv.length + 1) (i + 1) 0 r y h1 (hd'.trans (List.append_assoc _ _ _)) h2 hw
        rw [if_pos (show 100 < ds.foldl (fun n d => n * 10 + d) 0 from h3)] at e
        subst e
        injection hx with hx
        rw [← hx]
        refine ⟨rfl, Or.inr ⟨rfl, ?_⟩⟩
        cases ds with
        | nil => exact absurd h3 (by decide)
        | cons d ds =>
          refine ⟨digitChar d, _, hd', ?_⟩
          have : ∀ d < 10, digitChar d ≠ ',' := by decide
          exact this d (h1 d (by simp))
  | some ds =>
    obtain ⟨h10, h100⟩ := hv ds rfl
    rw [weightLetters, List.cons_append] at hd
    obtain ⟨_, hd'⟩ := charAt_drop hd
    simp only [parseChar_hit hd, bind, Except.bind, pure, Except.pure, parseWeight] at hx
    cases hw : parseWeightLoop cv (i + 1) 100 (cv.length + 1) (i + 1) 0 with
    | error e => rw [hw] at hx; cases hx
    | ok y =>
      rw [hw] at hx
      obtain ⟨e, e2⟩ := weightLoop_digits ds (cv.length + 1) (i + 1) 0 rest y h10 (hd'.trans (List.append_assoc _ _ _)) hf hw
      rw [if_neg (by unfold decimal at h100; omega)] at e
      subst e
      injection hx with hx
      rw [← hx]
      exact ⟨rfl, Or.inl e2⟩

/-- Every text is some weight and the rest. -/
theorem weight_split (l : List Char) : ∃ wt rest, l = weightLetters wt ++ rest ∧
    (∀ ds, wt = some ds → (∀ d ∈ ds, d < 10) ∧ decimal ds ≤ 100) ∧ WeightFollowed wt rest := by
  by_cases hb : Begins '@' l
  · cases l with
    | nil => cases hb
    | cons c l =>
      obtain rfl : c = '@' := Option.some.inj hb
      obtain ⟨ds, rest, rfl, h1, h2⟩ := split_digits l
      by_cases h : decimal ds ≤ 100
      · exact ⟨some ds, rest, rfl, fun ds' e => by injection e with e; subst e; exact ⟨h1, h⟩, h2⟩
      · exact ⟨none, _, rfl, (fun ds' e => by cases e), Or.inr ⟨ds, rest, rfl, h1, h2, by omega⟩⟩
  · exact ⟨none, l, rfl, (fun ds e => by cases e), Or.inl hb⟩

/-! ## The suffix and the second half of a dash -/

theorem suffix_complete {s : Suffix} {rest : List Char} (hf : s = .any → ¬ Begins 'o' rest ∧ ¬ Begins 's' rest)
    (hd : cv.drop i = s.text ++ (rest ++ [' '])) :
    ∃ j, parseSuffix cv i = .ok ((sfx s).1, (sfx s).2, j) ∧ cv.drop j = rest ++ [' '] := by
  unfold parseSuffix
  cases s with
  | any =>
    rw [Suffix.text, List.nil_append] at hd
    refine ⟨i, ?_, hd⟩
    simp [next_miss hd (by decide) (hf rfl).1, next_miss hd (by decide) (hf rfl).2, bind, Except.bind, pure, Except.pure, sfx]
  | suited =>
    rw [Suffix.text, List.singleton_append] at hd
    refine ⟨i + 1, ?_, (charAt_drop hd).2⟩
    simp [parseChar_miss hd (show 's' ≠ 'o' by decide), parseChar_hit hd, bind, Except.bind, pure, Except.pure, sfx]
  | offsuit =>
    rw [Suffix.text, List.singleton_append] at hd
    refine ⟨i + 1, ?_, (charAt_drop hd).2⟩
    simp [parseChar_hit hd, bind, Except.bind, pure, Except.pure, sfx]

theorem begins_cons {c : Char} {l : List Char} (h : Begins c l) : ∃ l', l = c :: l' := by
  cases l with
  | nil => cases h
  | cons d l => exact ⟨l, by rw [Option.some.inj h]⟩

theorem suffix_split (l : List Char) : ∃ (s : Suffix) (rest : List Char), l = s.text ++ rest ∧
    (s = .any → ¬ Begins 'o' rest ∧ ¬ Begins 's' rest) := by
  by_cases ho : Begins 'o' l
  · obtain ⟨l', rfl⟩ := begins_cons ho
    exact ⟨.offsuit, l', rfl, fun h => by cases h⟩
  · by_cases hs : Begins 's' l
    · obtain ⟨l', rfl⟩ := begins_cons hs
      exact ⟨.suited, l', rfl, fun h => by cases h⟩
    · exact ⟨.any, l, rfl, fun _ => ⟨ho, hs⟩⟩

theorem dash_complete {x y z t : Nat} {s : Suffix} {again : Bool} {rest : List Char} (hv : (Shape.dash x y z t s again).Valid)
    (hf : (Shape.dash x y z t s again).Followed rest)
    (hd : cv.drop i = [rankLetter z, rankLetter t] ++ ((if again then s.text else []) ++ (rest ++ [' ']))) :
    ∃ j, parseCombosDash cv x y (sfx s).1 (sfx s).2 i = .ok (true, j, z, t) ∧ cv.drop j = rest ++ [' '] := by
  obtain ⟨hx, hy, hz, ht, hsh⟩ := hv
  obtain ⟨f1, f2, f3⟩ := hf
  have hd1 : cv.drop i = rankLetter z :: (rankLetter t :: ((if again then s.text else []) ++ (rest ++ [' ']))) := hd
  have hd2 := (charAt_drop hd1).2
  have hd3 := (charAt_drop hd2).2
  have p1 := parseRank_hit hz hd1
  have p2 := parseRank_hit ht hd2
  have hsuf : ∃ b1 b2 j1 j, parseChar cv (i + 1 + 1) 'o' = .ok (b1, j1) ∧ parseChar cv j1 's' = .ok (b2, j) ∧
      cv.drop j = rest ++ [' '] ∧ (b1 = true → (sfx s) = (false, true)) ∧ (b2 = true → (sfx s) = (true, false)) := by
    cases again with
    | false =>
      simp only [Bool.false_eq_true, if_false, List.nil_append] at hd3
      obtain ⟨g1, g2⟩ := f2 rfl
      exact ⟨false, false, _, _, next_miss hd3 (by decide) g1, next_miss hd3 (by decide) g2, hd3, by simp, by simp⟩
    | true =>
      simp only [if_true] at hd3
      cases s with
      | any => exact absurd rfl (f1 rfl)
      | suited =>
        rw [Suffix.text, List.singleton_append] at hd3
        exact ⟨false, true, _, _, parseChar_miss hd3 (by decide), parseChar_hit hd3, (charAt_drop hd3).2, by simp, by simp [sfx]⟩
      | offsuit =>
        rw [Suffix.text, List.singleton_append] at hd3
        have h4 := (charAt_drop hd3).2
        exact ⟨true, false, _, _, parseChar_hit hd3, next_miss h4 (by decide) (f3 rfl rfl), h4, by simp [sfx], by simp⟩
  obtain ⟨b1, b2, j1, j, q1, q2, hj, hb1, hb2⟩ := hsuf
  refine ⟨j, ?_, hj⟩
  have e1 : (b1 && (sfx s).2 != true) = false := by
    cases b1
    · rfl
    · rw [hb1 rfl]; rfl
  have e2 : (b1 && (sfx s).1) = false := by
    cases b1
    · rfl
    · rw [hb1 rfl]; rfl
  have e3 : (b2 && (sfx s).1 != true) = false := by
    cases b2
    · rfl
    · rw [hb2 rfl]; rfl
  have e4 : (b2 && (sfx s).2) = false := by
    cases b2
    · rfl
    · rw [hb2 rfl]; rfl
  unfold parseCombosDash
  simp only [p1, p2, q1, q2, bind, Except.bind, pure, Except.pure, Bool.not_true, Bool.false_eq_true, if_false, e1, e2, e3, e4]
  rw [if_neg (by omega), if_neg (by omega)]
  by_cases hxy : x = y ∧ z = t
  · rw [if_pos hxy]
  · rw [if_neg hxy, if_neg (by omega)]

theorem dash_sound {x y z t j : Nat} {s : Suffix} (hx : x < 13) (hy : y < 13) (hd : cv.drop i = l ++ [' '])
    (h : parseCombosDash cv x y (sfx s).1 (sfx s).2 i = .ok (true, j, z, t)) :
    ∃ again rest, l = [rankLetter z, rankLetter t] ++ ((if again then s.text else []) ++ rest) ∧ (Shape.dash x y z t s again).Valid ∧
      (Shape.dash x y z t s again).Followed rest := by
  unfold parseCombosDash at h
  rcases rank_cases hd with ⟨z', l1, hz, rfl, p1, d1⟩ | p1
  swap
  · simp [p1, bind, Except.bind, pure, Except.pure] at h
  rcases rank_cases d1 with ⟨t', l2, ht, rfl, p2, d2⟩ | p2
  swap
  · simp [p1, p2, bind, Except.bind, pure, Except.pure] at h
  have hsuf : ∃ b1 b2 j1 j2, parseChar cv (i + 1 + 1) 'o' = .ok (b1, j1) ∧ parseChar cv j1 's' = .ok (b2, j2) ∧
      ((b1 && (sfx s).2 != true) = false → (b1 && (sfx s).1) = false → (b2 && (sfx s).1 != true) = false → (b2 && (sfx s).2) = false →
        ∃ again rest, l2 = (if again then s.text else []) ++ rest ∧
          ((again = true → s ≠ .any) ∧ (again = false → ¬ Begins 'o' rest ∧ ¬ Begins 's' rest) ∧
            (again = true → s = .offsuit → ¬ Begins 's' rest))) := by
    by_cases ho : Begins 'o' l2
    · obtain ⟨l3, rfl, q1, d3⟩ := next_hit d2 ho
      by_cases hs : Begins 's' l3
      · obtain ⟨l4, rfl, q2, d4⟩ := next_hit d3 hs
        exact ⟨_, _, _, _, q1, q2, fun a1 a2 a3 a4 => by cases s <;> simp [sfx] at a1 a2 a3 a4⟩
      · refine ⟨_, _, _, _, q1, next_miss d3 (by decide) hs, fun a1 a2 a3 a4 => ?_⟩
        cases s with
        | any => simp [sfx] at a2
        | suited => simp [sfx] at a1
        | offsuit => exact ⟨true, l3, rfl, (fun _ h => by cases h), (fun h => by cases h), fun _ _ => hs⟩
    · by_cases hs : Begins 's' l2
      · obtain ⟨l3, rfl, q2, d3⟩ := next_hit d2 hs
        refine ⟨_, _, _, _, next_miss d2 (by decide) ho, q2, fun a1 a2 a3 a4 => ?_⟩
        cases s with
        | any => simp [sfx] at a4
        | suited => exact ⟨true, l3, rfl, (fun _ h => by cases h), (fun h => by cases h), (fun _ h => by cases h)⟩
        | offsuit => simp [sfx] at a3
      · exact ⟨_, _, _, _, next_miss d2 (by decide) ho, next_miss d2 (by decide) hs, fun _ _ _ _ =>
          ⟨false, l2, rfl, (fun h => by cases h), (fun _ => ⟨ho, hs⟩), (fun h => by cases h)⟩⟩
  obtain ⟨b1, b2, j1, j2, q1, q2, hsuf⟩ := hsuf
  simp only [p1, p2, q1, q2, bind, Except.bind, pure, Except.pure, Bool.not_true, Bool.false_eq_true, if_false] at h
  by_cases e1 : (b1 && (sfx s).2 != true) = true
  · rw [if_pos e1] at h; cases h
  by_cases e2 : (b1 && (sfx s).1) = true
  · rw [if_neg e1, if_pos e2] at h; cases h
  by_cases e3 : (b2 && (sfx s).1 != true) = true
  · rw [if_neg e1, if_neg e2, if_pos e3] at h; cases h
  by_cases e4 : (b2 && (sfx s).2) = true
  · rw [if_neg e1, if_neg e2, if_neg e3, if_pos e4] at h; cases h
  rw [if_neg e1, if_neg e2, if_neg e3, if_neg e4] at h
  rw [Bool.not_eq_true] at e1 e2 e3 e4
  obtain ⟨again, rest, rfl, hfol⟩ := hsuf e1 e2 e3 e4
  have key : z' = z ∧ t' = t ∧ ((x = y ∧ z' = t') ∨ (x ≠ y ∧ z' ≠ t' ∧ (x = z' ∨ x = t' ∨ y = z' ∨ y = t'))) := by
    split_ifs at h with c1 c2 c3 c4
    · cases h
    · cases h
    · injection h with h
      injection h with _ h
      injection h with _ h
      injection h with h1 h2
      exact ⟨h1, h2, Or.inl c3⟩
    · cases h
    · injection h with h
      injection h with _ h
      injection h with _ h
      injection h with h1 h2
      exact ⟨h1, h2, by omega⟩
  obtain ⟨rfl, rfl, key⟩ := key
  exact ⟨again, rest, rfl, ⟨hx, hy, hz, ht, key⟩, hfol⟩

/-! ## One token -/

theorem percent_eq (t : Token) : t.percent = percentOf t.weight := by
  unfold Token.percent percentOf
  cases t.weight <;> rfl

/-- If the text begins with a token, the parser reads the token, unless the weight overflows. -/
theorem parseHand_complete {t : Token} {rest : List Char} (ht : Takes l t rest) (hd : cv.drop i = l ++ [' ']) (hands : List Combo)
    {x : Bool × Nat × List Combo} (hx : parseHand cv i hands = .ok x) :
    ∃ j, x = (true, j, hands ++ shapeCombos t.percent t.shape) ∧ After cv j rest := by
  obtain ⟨hvs, hvw, rfl, hfs, hfw⟩ := ht
  obtain ⟨sh, wt⟩ := t
  rw [percent_eq]
  simp only at hvs hvw hfs hfw hd ⊢
  unfold parseHand at hx
  cases sh with
  | cards a b =>
    obtain ⟨ha, hb, hab⟩ := hvs
    have hrx : Spec.rank a < 13 := by unfold Spec.rank; omega
    have hry : Spec.rank b < 13 := by unfold Spec.rank; omega
    have hsx : Spec.suit a < 4 := by unfold Spec.suit; omega
    have hsy : Spec.suit b < 4 := by unfold Spec.suit; omega
    simp only [Shape.text, List.cons_append, List.nil_append] at hd
    have d1 := (charAt_drop hd).2
    have d2 := (charAt_drop d1).2
    have d3 := (charAt_drop d2).2
    have d4 := (charAt_drop d3).2
    have ex : 4 * Spec.rank a + Spec.suit a = a := by unfold Spec.rank Spec.suit; omega
    have ey : 4 * Spec.rank b + Spec.suit b = b := by unfold Spec.rank Spec.suit; omega
    simp only [parseRank_hit hrx hd, parseSuit_hit hsx d1, parseRank_hit hry d2, parseSuit_hit hsy d3, ex, ey, hab, bind, Except.bind,
      pure, Except.pure, Bool.not_true, Bool.false_eq_true, if_false, if_true] at hx
    cases hw : parseAtWeight cv (i + 1 + 1 + 1 + 1) 100 with
    | error e => rw [hw] at hx; cases hx
    | ok y =>
      rw [hw] at hx
      obtain ⟨w1, w2⟩ := weight_complete hvw hfw (by rw [d4]) hw
      injection hx with hx
      refine ⟨y.1, ?_, w2⟩
      rw [← hx, ← w1, addCombo_eq]
      rfl
  | plain a b s =>
    obtain ⟨ha, hb⟩ := hvs
    obtain ⟨f1, f2, f3⟩ := hfs
    simp only [Shape.text, List.cons_append, List.nil_append] at hd
    have d1 := (charAt_drop hd).2
    have d2 := (charAt_drop d1).2
    obtain ⟨j1, hsu, d3⟩ := suffix_complete f1 (by rw [d2, List.append_assoc])
    simp only [parseRank_hit ha hd, parseSuit_rank hb d1, parseRank_hit hb d1, hsu, next_miss d3 (by decide) f2, next_miss d3 (by decide) f3,
      bind, Except.bind, pure, Except.pure, Bool.not_true, Bool.false_eq_true, if_false] at hx
    cases hw : parseAtWeight cv j1 100 with
    | error e => rw [hw] at hx; cases hx
    | ok y =>
      rw [hw] at hx
      obtain ⟨w1, w2⟩ := weight_complete hvw hfw d3 hw
      injection hx with hx
      refine ⟨y.1, ?_, w2⟩
      rw [← hx, ← w1, addCombos_eq]
      rfl
  | plus a b s =>
    obtain ⟨ha, hb⟩ := hvs
    simp only [Shape.text, List.cons_append, List.nil_append, List.append_assoc] at hd
    have d1 := (charAt_drop hd).2
    have d2 := (charAt_drop d1).2
    obtain ⟨j1, hsu, d3⟩ := parseSuffix_text (show '+' ≠ 'o' by decide) (show '+' ≠ 's' by decide) d2
    have d4 := (charAt_drop d3).2
    simp only [parseRank_hit ha hd, parseSuit_rank hb d1, parseRank_hit hb d1, hsu, parseChar_hit d3,
      bind, Except.bind, pure, Except.pure, Bool.not_true, Bool.false_eq_true, if_false, if_true] at hx
    cases hw : parseAtWeight cv (j1 + 1) 100 with
    | error e => rw [hw] at hx; cases hx
    | ok y =>
      rw [hw] at hx
      obtain ⟨w1, w2⟩ := weight_complete hvw hfw (by rw [d4, List.append_assoc]) hw
      injection hx with hx
      refine ⟨y.1, ?_, w2⟩
      rw [← hx, ← w1, addCombosPlus_eq]
      rfl
  | dash a b z t s again =>
    have hvs' := hvs
    obtain ⟨ha, hb, hz, ht, hsh⟩ := hvs
    simp only [Shape.text, List.cons_append, List.nil_append, List.append_assoc] at hd
    have d1 := (charAt_drop hd).2
    have d2 := (charAt_drop d1).2
    obtain ⟨j1, hsu, d3⟩ := parseSuffix_text (show '-' ≠ 'o' by decide) (show '-' ≠ 's' by decide) d2
    have d4 := (charAt_drop d3).2
    obtain ⟨j2, hdash, d5⟩ := dash_complete hvs' hfs (by rw [d4, List.append_assoc]; rfl)
    simp only [parseRank_hit ha hd, parseSuit_rank hb d1, parseRank_hit hb d1, hsu, parseChar_miss d3 (show '-' ≠ '+' by decide),
      parseChar_hit d3, hdash, bind, Except.bind, pure, Except.pure, Bool.not_true, Bool.false_eq_true, if_false, if_true] at hx
    cases hw : parseAtWeight cv j2 100 with
    | error e => rw [hw] at hx; cases hx
    | ok y =>
      rw [hw] at hx
      obtain ⟨w1, w2⟩ := weight_complete hvw hfw d5 hw
      injection hx with hx
      refine ⟨y.1, ?_, w2⟩
      rw [← hx, ← w1, addCombosDash_eq]
      rfl

/-- If the parser succeeds, the text begins with a token. -/
theorem parseHand_sound (hd : cv.drop i = l ++ [' ']) (hands : List Combo) {j : Nat} {new : List Combo}
    (hx : parseHand cv i hands = .ok (true, j, new)) : ∃ t rest, Takes l t rest := by
  unfold parseHand at hx
  rcases rank_cases hd with ⟨a, l1, ha, rfl, p1, d1⟩ | p1
  swap
  · simp [p1, bind, Except.bind, pure, Except.pure] at hx
  rcases suit_cases d1 with ⟨s1, l2, hs1, rfl, p2, d2⟩ | p2
  · rcases rank_cases d2 with ⟨b, l3, hb, rfl, p3, d3⟩ | p3
    swap
    · simp [p1, p2, p3, bind, Except.bind, pure, Except.pure] at hx
    rcases suit_cases d3 with ⟨s2, l4, hs2, rfl, p4, d4⟩ | p4
    swap
    · simp [p1, p2, p3, p4, bind, Except.bind, pure, Except.pure] at hx
    by_cases hc : 4 * a + s1 = 4 * b + s2
    · simp [p1, p2, p3, p4, hc, bind, Except.bind, pure, Except.pure] at hx
    · obtain ⟨wt, rest, rfl, hv, hf⟩ := weight_split l4
      refine ⟨⟨.cards (4 * a + s1) (4 * b + s2), wt⟩, rest, ⟨⟨by omega, by omega, hc⟩, hv, ?_, trivial, hf⟩⟩
      have e1 : Spec.rank (4 * a + s1) = a := by unfold Spec.rank; omega
      have e2 : Spec.rank (4 * b + s2) = b := by unfold Spec.rank; omega
      have e3 : Spec.suit (4 * a + s1) = s1 := by unfold Spec.suit; omega
      have e4 : Spec.suit (4 * b + s2) = s2 := by unfold Spec.suit; omega
      simp only [Shape.text, e1, e2, e3, e4, List.cons_append, List.nil_append]
  · rcases rank_cases d1 with ⟨b, l2, hb, rfl, p3, d2⟩ | p3
    swap
    · simp [p1, p2, p3, bind, Except.bind, pure, Except.pure] at hx
    obtain ⟨s, l3, rfl, hs⟩ := suffix_split l2
    obtain ⟨j1, hsu, d3⟩ := suffix_complete hs (by rw [d2, List.append_assoc])
    by_cases hplus : Begins '+' l3
    · obtain ⟨l4, rfl⟩ := begins_cons hplus
      obtain ⟨wt, rest, rfl, hv, hf⟩ := weight_split l4
      exact ⟨⟨.plus a b s, wt⟩, rest, ⟨⟨ha, hb⟩, hv, by simp [Shape.text], trivial, hf⟩⟩
    · by_cases hdash : Begins '-' l3
      · obtain ⟨l4, rfl, q, d4⟩ := next_hit d3 hdash
        simp only [p1, p2, p3, hsu, next_miss d3 (by decide) hplus, q, bind, Except.bind, pure, Except.pure, Bool.not_true,
          Bool.false_eq_true, if_false, if_true] at hx
        cases hdd : parseCombosDash cv a b (sfx s).1 (sfx s).2 (j1 + 1) with
        | error e => rw [hdd] at hx; cases hx
        | ok y =>
          obtain ⟨ok, j2, z, t⟩ := y
          rw [hdd] at hx
          cases ok with
          | false => simp at hx
          | true =>
            obtain ⟨again, l5, rfl, hv1, hf1⟩ := dash_sound ha hb d4 hdd
            obtain ⟨wt, rest, rfl, hv, hf⟩ := weight_split l5
            exact ⟨⟨.dash a b z t s again, wt⟩, rest, ⟨hv1, hv, by simp [Shape.text], hf1, hf⟩⟩
      · obtain ⟨wt, rest, rfl, hv, hf⟩ := weight_split l3
        exact ⟨⟨.plain a b s, wt⟩, rest, ⟨⟨ha, hb⟩, hv, by simp [Shape.text], ⟨hs, hplus, hdash⟩, hf⟩⟩

theorem parseHand_none (h : ∀ t rest, ¬ Takes l t rest) (hd : cv.drop i = l ++ [' ']) (hands : List Combo)
    {x : Bool × Nat × List Combo} (hx : parseHand cv i hands = .ok x) : x.1 = false ∧ x.2.2 = hands := by
  have he : Ends cv := by
    refine ⟨cv.take i ++ l, ?_⟩
    rw [List.append_assoc, ← hd, List.take_append_drop]
  have hi : i < cv.length := by
    by_contra hge
    rw [List.drop_eq_nil_of_le (by omega)] at hd
    simp at hd
  rcases parseHand_spec he hi hands with h' | ⟨j, new, h', _⟩ | ⟨h', _⟩
  · rw [h'] at hx
    rw [← Except.ok.inj hx]
    exact ⟨rfl, rfl⟩
  · obtain ⟨t, rest, ht⟩ := parseHand_sound hd hands h'
    exact absurd ht (h t rest)
  · rw [h'] at hx; cases hx

/-! ## All tokens -/

theorem parseLoop_reads {ts : List Token} {tail : List Char} (hr : Reads l ts tail) : ∀ (fuel i : Nat) (hands res : List Combo),
    cv.drop i = l ++ [' '] → parseLoop cv fuel i hands = .ok res →
    res = hands ++ ts.flatMap (fun t => shapeCombos t.percent t.shape) := by
  induction hr with
  | stop l h =>
    intro fuel i hands res hd hx
    cases fuel with
    | zero => cases hx
    | succ fuel =>
      rw [parseLoop] at hx
      cases hp : parseHand cv i hands with
      | error e => simp [hp, bind, Except.bind] at hx
      | ok x =>
        obtain ⟨h1, h2⟩ := parseHand_none h hd hands hp
        obtain ⟨ok, j, new⟩ := x
        simp only at h1 h2
        subst h1; subst h2
        simp only [hp, bind, Except.bind, pure, Except.pure, Bool.false_eq_true, if_false] at hx
        rw [← Except.ok.inj hx]
        simp
  | last l t rest ht hc =>
    intro fuel i hands res hd hx
    cases fuel with
    | zero => cases hx
    | succ fuel =>
      rw [parseLoop] at hx
      cases hp : parseHand cv i hands with
      | error e => simp [hp, bind, Except.bind] at hx
      | ok x =>
        obtain ⟨j, rfl, ha⟩ := parseHand_complete ht hd hands hp
        simp only [hp, ha.comma.1 hc, bind, Except.bind, pure, Except.pure, Bool.false_eq_true, if_false, if_true] at hx
        rw [← Except.ok.inj hx]
        simp
  | more l t rest ts tail ht _ ih =>
    intro fuel i hands res hd hx
    cases fuel with
    | zero => cases hx
    | succ fuel =>
      rw [parseLoop] at hx
      cases hp : parseHand cv i hands with
      | error e => simp [hp, bind, Except.bind] at hx
      | ok x =>
        obtain ⟨j, rfl, ha⟩ := parseHand_complete ht hd hands hp
        obtain ⟨c1, c2⟩ := ha.comma.2 rest rfl
        simp only [hp, c1, bind, Except.bind, if_true] at hx
        rw [ih fuel (j + 1) _ res c2 hx]
        simp

open Classical in
/-- Every text is read in some way. -/
theorem reads_exists : ∀ (n : Nat) (l : List Char), l.length ≤ n → ∃ ts tail, Reads l ts tail := by
  intro n
  induction n with
  | zero =>
    intro l hl
    refine ⟨[], l, .stop l fun t rest h => ?_⟩
    have := h.text
    have hl0 : l = [] := List.length_eq_zero_iff.1 (by omega)
    rw [hl0] at this
    obtain ⟨sh, wt⟩ := t
    cases sh <;> simp [Shape.text] at this
  | succ n ih =>
    intro l hl
    by_cases h : ∃ t rest, Takes l t rest
    · obtain ⟨t, rest, h⟩ := h
      by_cases hc : Begins ',' rest
      · obtain ⟨rest, rfl⟩ := begins_cons hc
        obtain ⟨ts, tail, hr⟩ := ih rest (by
          have := congrArg List.length h.text
          simp only [List.length_append, List.length_cons] at this
          omega)
        exact ⟨t :: ts, tail, .more l t rest ts tail h hr⟩
      · exact ⟨[t], rest, .last l t rest h hc⟩
    · push Not at h
      exact ⟨[], l, .stop l h⟩

end Pokers
