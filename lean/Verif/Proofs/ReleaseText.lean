import Verif.Model.ReleaseText
import Verif.Spec.Weights
import Verif.Proofs.RangeRead
/-! The release build reads a text like the checked build reads the text with reduced weights. -/
namespace Pokers
open Spec

/-! ## Nothing changes if the checked build does not panic -/

/-- Where the first computation has a result, the second has the same. -/
def Follows {α : Type} (x y : Except Panic α) : Prop := ∀ a, x = .ok a → y = .ok a

theorem Follows.refl {α : Type} (x : Except Panic α) : Follows x x := fun _ h => h

theorem Follows.bind {α β : Type} {x y : Except Panic α} {f g : α → Except Panic β} (h : Follows x y)
    (hf : ∀ a, Follows (f a) (g a)) : Follows (x >>= f) (y >>= g) := by
  intro b hb
  cases x with
  | error e => cases hb
  | ok a =>
    rw [h a rfl]
    exact hf a b hb

theorem Follows.ite {α : Type} {c : Prop} [Decidable c] {x y x' y' : Except Panic α} (h : Follows x y) (h' : Follows x' y') :
    Follows (if c then x else x') (if c then y else y') := by
  split_ifs
  · exact h
  · exact h'

theorem weightLoop_follows (cv : List Char) (b w fuel : Nat) : ∀ i number,
    Follows (parseWeightLoop cv b w fuel i number) (parseWeightLoopR cv b w fuel i number) := by
  induction fuel with
  | zero => intro i number; exact Follows.refl _
  | succ fuel ih =>
    intro i number
    rw [parseWeightLoop, parseWeightLoopR]
    refine Follows.bind (Follows.refl _) (fun d => ?_)
    cases toDigit d with
    | none => exact Follows.refl _
    | some num =>
      simp only
      split_ifs with h1 h2
      · rw [Nat.mod_eq_of_lt h1, Nat.mod_eq_of_lt h2]
        exact ih _ _
      · intro a h; cases h
      · intro a h; cases h

theorem atWeight_follows (cv : List Char) (i w : Nat) : Follows (parseAtWeight cv i w) (parseAtWeightR cv i w) := by
  unfold parseAtWeight parseAtWeightR
  refine Follows.bind (Follows.refl _) (fun p => ?_)
  refine Follows.ite ?_ (Follows.refl _)
  exact Follows.bind (weightLoop_follows _ _ _ _ _ _) (fun _ => Follows.refl _)

theorem hand_follows (cv : List Char) (i : Nat) (hands : List Combo) : Follows (parseHand cv i hands) (parseHandR cv i hands) := by
  unfold parseHand parseHandR
  refine Follows.bind (Follows.refl _) (fun p => Follows.ite (Follows.refl _) ?_)
  refine Follows.bind (Follows.refl _) (fun p => ?_)
  refine Follows.bind (Follows.refl _) (fun p => Follows.ite (Follows.refl _) ?_)
  refine Follows.ite ?_ ?_
  · refine Follows.bind (Follows.refl _) (fun p => Follows.ite (Follows.refl _) ?_)
    refine Follows.ite (Follows.refl _) ?_
    exact Follows.bind (atWeight_follows _ _ _) (fun _ => Follows.refl _)
  · refine Follows.bind (Follows.refl _) (fun p => ?_)
    refine Follows.bind (Follows.refl _) (fun p => ?_)
    refine Follows.ite (Follows.bind (atWeight_follows _ _ _) (fun _ => Follows.refl _)) ?_
    refine Follows.bind (Follows.refl _) (fun p => ?_)
    refine Follows.ite ?_ (Follows.bind (atWeight_follows _ _ _) (fun _ => Follows.refl _))
    refine Follows.bind (Follows.refl _) (fun p => Follows.ite (Follows.refl _) ?_)
    exact Follows.bind (atWeight_follows _ _ _) (fun _ => Follows.refl _)

theorem loop_follows (cv : List Char) (fuel : Nat) : ∀ i hands, Follows (parseLoop cv fuel i hands) (parseLoopR cv fuel i hands) := by
  induction fuel with
  | zero => intro i hands; exact Follows.refl _
  | succ fuel ih =>
    intro i hands
    rw [parseLoop, parseLoopR]
    refine Follows.bind (hand_follows _ _ _) (fun p => Follows.ite ?_ (Follows.refl _))
    exact Follows.bind (Follows.refl _) (fun p => Follows.ite (ih _ _) (Follows.refl _))

theorem fromString_follows (lower : List Char → List Char) (text : List Char) :
    Follows (fromString lower text) (fromStringR lower text) := by
  unfold fromString fromStringR
  refine Follows.ite (Follows.refl _) ?_
  exact Follows.bind (loop_follows _ _ _ _) (fun _ => Follows.refl _)

/-! ## The two cursors -/

/-- The cursors stand before a text and the same text with reduced weights. -/
def Twin (cv cv' : List Char) (i i' : Nat) : Prop :=
  ∃ l l', Reduced l l' ∧ cv.drop i = l ++ [' '] ∧ cv'.drop i' = l' ++ [' ']

/-- The cursors stand before two texts as above, or both before a digit. -/
def Near2 (cv cv' : List Char) (i i' : Nat) : Prop :=
  Twin cv cv' i i' ∨ ∃ c l c' l', cv.drop i = c :: l ∧ cv'.drop i' = c' :: l' ∧ c ≠ ',' ∧ c' ≠ ','

variable {cv cv' : List Char} {i i' : Nat}

theorem drop_lt {l : List Char} {c : Char} (h : cv.drop i = c :: l) : i < cv.length := by
  by_contra hge
  rw [List.drop_eq_nil_of_le (by omega)] at h
  cases h

theorem Twin.lt (h : Twin cv cv' i i') : i < cv.length ∧ i' < cv'.length := by
  obtain ⟨l, l', _, h1, h2⟩ := h
  constructor
  · by_contra hge
    rw [List.drop_eq_nil_of_le (by omega)] at h1
    simp at h1
  · by_contra hge
    rw [List.drop_eq_nil_of_le (by omega)] at h2
    simp at h2

theorem Twin.next (h : Twin cv cv' i i') : ∃ c, charAt cv i = .ok c ∧ charAt cv' i' = .ok c ∧
    (c ≠ '@' → c ≠ ' ' → Twin cv cv' (i + 1) (i' + 1)) := by
  obtain ⟨l, l', hr, h1, h2⟩ := h
  cases hr with
  | nil => exact ⟨' ', (charAt_drop h1).1, (charAt_drop h2).1, fun _ h => absurd rfl h⟩
  | other hc hr => exact ⟨_, (charAt_drop h1).1, (charAt_drop h2).1, fun _ _ => ⟨_, _, hr, (charAt_drop h1).2, (charAt_drop h2).2⟩⟩
  | weight _ _ _ _ _ _ _ => exact ⟨'@', (charAt_drop h1).1, (charAt_drop h2).1, fun h => absurd rfl h⟩

theorem Twin.char (h : Twin cv cv' i i') {c : Char} (h1 : c ≠ '@') (h2 : c ≠ ' ') :
    ∃ b j j', parseChar cv i c = .ok (b, j) ∧ parseChar cv' i' c = .ok (b, j') ∧ Twin cv cv' j j' ∧ i ≤ j ∧ i' ≤ j' := by
  obtain ⟨d, e1, e2, hn⟩ := h.next
  unfold parseChar
  rw [e1, e2]
  by_cases hd : d = c
  · subst hd
    refine ⟨true, i + 1, i' + 1, ?_, ?_, hn h1 h2, by omega, by omega⟩ <;> simp [bind, Except.bind, pure, Except.pure]
  · refine ⟨false, i, i', ?_, ?_, h, by omega, by omega⟩ <;> simp [bind, Except.bind, pure, Except.pure, hd]

theorem Twin.rank (h : Twin cv cv' i i') :
    ∃ b j j' r, parseRank cv i = .ok (b, j, r) ∧ parseRank cv' i' = .ok (b, j', r) ∧ Twin cv cv' j j' ∧ i ≤ j ∧ i' ≤ j' ∧
      (b = true → i < j ∧ i' < j') := by
  obtain ⟨d, e1, e2, hn⟩ := h.next
  unfold parseRank
  rw [e1, e2]
  by_cases hd : charToRank d = 255
  · refine ⟨false, i, i', 255, ?_, ?_, h, by omega, by omega, (fun h => by cases h)⟩ <;> simp [bind, Except.bind, pure, Except.pure, hd]
  · refine ⟨true, i + 1, i' + 1, charToRank d, ?_, ?_, hn ?_ ?_, by omega, by omega, fun _ => ⟨by omega, by omega⟩⟩
    · simp [bind, Except.bind, pure, Except.pure, hd]
    · simp [bind, Except.bind, pure, Except.pure, hd]
    · rintro rfl; exact hd (by decide)
    · rintro rfl; exact hd (by decide)

theorem Twin.suit (h : Twin cv cv' i i') :
    ∃ b j j' r, parseSuit cv i = .ok (b, j, r) ∧ parseSuit cv' i' = .ok (b, j', r) ∧ Twin cv cv' j j' ∧ i ≤ j ∧ i' ≤ j' := by
  obtain ⟨d, e1, e2, hn⟩ := h.next
  unfold parseSuit
  rw [e1, e2]
  by_cases hd : charToSuit d = 255
  · refine ⟨false, i, i', 255, ?_, ?_, h, by omega, by omega⟩ <;> simp [bind, Except.bind, pure, Except.pure, hd]
  · refine ⟨true, i + 1, i' + 1, charToSuit d, ?_, ?_, hn ?_ ?_, by omega, by omega⟩
    · simp [bind, Except.bind, pure, Except.pure, hd]
    · simp [bind, Except.bind, pure, Except.pure, hd]
    · rintro rfl; exact hd (by decide)
    · rintro rfl; exact hd (by decide)

theorem Twin.suffix (h : Twin cv cv' i i') :
    ∃ s o j j', parseSuffix cv i = .ok (s, o, j) ∧ parseSuffix cv' i' = .ok (s, o, j') ∧ Twin cv cv' j j' ∧ i ≤ j ∧ i' ≤ j' := by
  unfold parseSuffix
  obtain ⟨b, j, j', e1, e2, h1, l1, l1'⟩ := h.char (c := 'o') (by decide) (by decide)
  cases b
  · obtain ⟨b, k, k', e3, e4, h2, l2, l2'⟩ := h1.char (c := 's') (by decide) (by decide)
    cases b
    · exact ⟨true, true, k, k', by simp [e1, e3, bind, Except.bind, pure, Except.pure],
        by simp [e2, e4, bind, Except.bind, pure, Except.pure], h2, by omega, by omega⟩
    · exact ⟨true, false, k, k', by simp [e1, e3, bind, Except.bind, pure, Except.pure],
        by simp [e2, e4, bind, Except.bind, pure, Except.pure], h2, by omega, by omega⟩
  · exact ⟨false, true, j, j', by simp [e1, bind, Except.bind, pure, Except.pure],
      by simp [e2, bind, Except.bind, pure, Except.pure], h1, by omega, by omega⟩

set_option maxHeartbeats 2000000 in
theorem Twin.dash (h : Twin cv cv' i i') (r1 r2 : Nat) (s o : Bool) :
    ∃ ok j j' r3 r4, parseCombosDash cv r1 r2 s o i = .ok (ok, j, r3, r4) ∧ parseCombosDash cv' r1 r2 s o i' = .ok (ok, j', r3, r4) ∧
      Twin cv cv' j j' ∧ i ≤ j ∧ i' ≤ j' := by
  unfold parseCombosDash
  obtain ⟨b, j, j', r3, e1, e2, h1, l1, l1', _⟩ := h.rank
  cases b
  · exact ⟨false, j, j', r3, 255, by simp [e1, bind, Except.bind, pure, Except.pure],
      by simp [e2, bind, Except.bind, pure, Except.pure], h1, by omega, by omega⟩
  obtain ⟨b, k, k', r4, e3, e4, h2, l2, l2', _⟩ := h1.rank
  cases b
  · exact ⟨false, k, k', r3, r4, by simp [e1, e3, bind, Except.bind, pure, Except.pure],
      by simp [e2, e4, bind, Except.bind, pure, Except.pure], h2, by omega, by omega⟩
  obtain ⟨bo, m, m', e5, e6, h3, l3, l3'⟩ := h2.char (c := 'o') (by decide) (by decide)
  obtain ⟨bs, n, n', e7, e8, h4, l4, l4'⟩ := h3.char (c := 's') (by decide) (by decide)
  simp only [e1, e2, e3, e4, e5, e6, e7, e8, bind, Except.bind, pure, Except.pure, Bool.not_true, Bool.false_eq_true, if_false]
  split_ifs
  all_goals first
    | exact ⟨_, _, _, _, _, rfl, rfl, h3, by omega, by omega⟩
    | exact ⟨_, _, _, _, _, rfl, rfl, h4, by omega, by omega⟩

/-! ## Weights -/

theorem weightLoopR_digits {b w : Nat} (ds : List Nat) : ∀ (fuel i number : Nat) (rest : List Char), (∀ d ∈ ds, d < 10) → ds.length < fuel →
    cv.drop i = ds.map digitChar ++ (rest ++ [' ']) → ¬ BeginsDigit rest → number < 2 ^ 32 →
    parseWeightLoopR cv b w fuel i number = .ok
      (if 100 < ds.foldl (fun n d => n * 10 + d) number % 2 ^ 32 then (false, b, w)
        else (true, i + ds.length, ds.foldl (fun n d => n * 10 + d) number % 2 ^ 32)) ∧
      cv.drop (i + ds.length) = rest ++ [' '] := by
  induction ds with
  | nil =>
    intro fuel i number rest _ hf hd hr hn
    obtain ⟨fuel, rfl⟩ : ∃ f, fuel = f + 1 := ⟨fuel - 1, by simp at hf; omega⟩
    rw [List.map_nil, List.nil_append] at hd
    obtain ⟨c, r, e, hc⟩ := notDigit_space hr
    rw [e] at hd
    refine ⟨?_, hd.trans e.symm⟩
    rw [parseWeightLoopR]
    simp only [(charAt_drop hd).1, bind, Except.bind, hc, List.foldl_nil, List.length_nil, Nat.add_zero, Nat.mod_eq_of_lt hn]
    by_cases h1 : 100 < number
    · rw [if_pos h1, if_pos h1]
    · rw [if_neg h1, if_neg h1, Nat.mod_eq_of_lt (show number < 2 ^ 8 by omega)]
  | cons d ds ih =>
    intro fuel i number rest hds hf hd hr hn
    obtain ⟨fuel, rfl⟩ : ∃ f, fuel = f + 1 := ⟨fuel - 1, by simp at hf; omega⟩
    rw [List.map_cons, List.cons_append] at hd
    obtain ⟨hc, hd'⟩ := charAt_drop hd
    have := ih fuel (i + 1) ((number * 10 % 2 ^ 32 + d) % 2 ^ 32) rest (fun y hy => hds y (by simp [hy])) (by simp at hf; omega) hd' hr
      (Nat.mod_lt _ (by norm_num))
    have hmod : ∀ (ds : List Nat) (n m : Nat), n % 2 ^ 32 = m % 2 ^ 32 →
        ds.foldl (fun n d => n * 10 + d) n % 2 ^ 32 = ds.foldl (fun n d => n * 10 + d) m % 2 ^ 32 := by
      intro ds
      induction ds with
      | nil => intro n m h; exact h
      | cons d ds ih' =>
        intro n m h
        rw [List.foldl_cons, List.foldl_cons]
        exact ih' _ _ (by omega)
    rw [hmod ds ((number * 10 % 2 ^ 32 + d) % 2 ^ 32) (number * 10 + d) (by omega)] at this
    rw [parseWeightLoopR]
    simp only [hc, bind, Except.bind, toDigit_digit (hds d (by simp)), List.length_cons, List.foldl_cons]
    rw [show i + (ds.length + 1) = i + 1 + ds.length by omega]
    exact this

theorem weightLoop_small {b w : Nat} (ds : List Nat) : ∀ (fuel i number : Nat) (rest : List Char), (∀ d ∈ ds, d < 10) → ds.length < fuel →
    cv.drop i = ds.map digitChar ++ (rest ++ [' ']) → ¬ BeginsDigit rest → ds.foldl (fun n d => n * 10 + d) number < 2 ^ 32 →
    ∃ x, parseWeightLoop cv b w fuel i number = .ok x := by
  induction ds with
  | nil =>
    intro fuel i number rest _ hf hd hr hn
    obtain ⟨fuel, rfl⟩ : ∃ f, fuel = f + 1 := ⟨fuel - 1, by simp at hf; omega⟩
    rw [List.map_nil, List.nil_append] at hd
    obtain ⟨c, r, e, hc⟩ := notDigit_space hr
    rw [e] at hd
    rw [parseWeightLoop]
    simp only [(charAt_drop hd).1, bind, Except.bind, hc]
    split_ifs
    · exact ⟨_, rfl⟩
    · exact ⟨_, rfl⟩
  | cons d ds ih =>
    intro fuel i number rest hds hf hd hr hn
    obtain ⟨fuel, rfl⟩ : ∃ f, fuel = f + 1 := ⟨fuel - 1, by simp at hf; omega⟩
    rw [List.map_cons, List.cons_append] at hd
    obtain ⟨hc, hd'⟩ := charAt_drop hd
    rw [List.foldl_cons] at hn
    have hle := lt_of_le_of_lt (decimal_mono ds (number * 10 + d)) hn
    rw [parseWeightLoop]
    simp only [hc, bind, Except.bind, toDigit_digit (hds d (by simp)), hle, show number * 10 < 2 ^ 32 by omega, if_true]
    exact ih fuel (i + 1) _ rest (fun y hy => hds y (by simp [hy])) (by simp at hf; omega) hd' hr hn

theorem digits_short {ds : List Nat} {l : List Char} {k : Nat} (h : cv.drop k = ds.map digitChar ++ l) : ds.length < cv.length + 1 := by
  have := drop_length_le h
  simp at this
  omega

theorem Twin.weight (h : Twin cv cv' i i') :
    ∃ j j' w, parseAtWeightR cv i 100 = .ok (j, w) ∧ parseAtWeight cv' i' 100 = .ok (j', w) ∧ Near2 cv cv' j j' ∧ i ≤ j ∧ i' ≤ j' := by
  unfold parseAtWeight parseAtWeightR
  by_cases hat : ∃ t, cv.drop i = '@' :: t
  · obtain ⟨l, l', hr, h1, h2⟩ := h
    cases hr with
    | nil => obtain ⟨t, ht⟩ := hat; rw [ht] at h1; exact absurd (List.cons.inj h1).1 (by decide)
    | other hc hr => obtain ⟨t, ht⟩ := hat; rw [ht] at h1; exact absurd (List.cons.inj h1).1.symm hc
    | @weight ds ds' l l' d1 d2 hv hnil b1 b2 hr =>
      obtain ⟨_, g1⟩ := charAt_drop h1
      obtain ⟨_, g2⟩ := charAt_drop h2
      have g1' := g1.trans (List.append_assoc _ _ _)
      have g2' := g2.trans (List.append_assoc _ _ _)
      obtain ⟨e1, a1⟩ := weightLoopR_digits (b := i + 1) (w := 100) ds (cv.length + 1) (i + 1) 0 l d1 (digits_short g1') g1' b1 (by norm_num)
      have hlt : decimal ds' < 2 ^ 32 := by rw [hv]; exact Nat.mod_lt _ (by norm_num)
      obtain ⟨x, e2⟩ := weightLoop_small (b := i' + 1) (w := 100) ds' (cv'.length + 1) (i' + 1) 0 l' d2 (digits_short g2') g2' b2 hlt
      obtain ⟨ex, a2⟩ := weightLoop_digits ds' (cv'.length + 1) (i' + 1) 0 l' x d2 g2' b2 e2
      change parseWeightLoopR cv (i + 1) 100 (cv.length + 1) (i + 1) 0 = Except.ok (if 100 < decimal ds % 2 ^ 32 then _ else (_, _, decimal ds % 2 ^ 32)) at e1
      change x = (if 100 < decimal ds' then _ else (_, _, decimal ds')) at ex
      rw [hv] at ex
      rw [ex] at e2
      by_cases h100 : 100 < decimal ds % 2 ^ 32
      · rw [if_pos h100] at e1 e2
        refine ⟨i + 1, i' + 1, 100, ?_, ?_, ?_, by omega, by omega⟩
        · simp [parseChar_hit h1, bind, Except.bind, pure, Except.pure, parseWeightR, e1]
        · simp [parseChar_hit h2, bind, Except.bind, pure, Except.pure, parseWeight, e2]
        · right
          have hne : ∀ d < 10, digitChar d ≠ ',' := by decide
          cases ds with
          | nil => exact absurd h100 (by decide)
          | cons d ds =>
            cases ds' with
            | nil => exact absurd (hnil.1 rfl) (by simp)
            | cons d' ds' => exact ⟨_, _, _, _, g1, g2, hne d (d1 d (by simp)), hne d' (d2 d' (by simp))⟩
      · rw [if_neg h100] at e1 e2
        refine ⟨i + 1 + ds.length, i' + 1 + ds'.length, decimal ds % 2 ^ 32, ?_, ?_, Or.inl ⟨l, l', hr, a1, a2⟩, by omega, by omega⟩
        · simp [parseChar_hit h1, bind, Except.bind, pure, Except.pure, parseWeightR, e1]
        · simp [parseChar_hit h2, bind, Except.bind, pure, Except.pure, parseWeight, e2]
  · obtain ⟨d, e1, e2, hn⟩ := h.next
    have hd : d ≠ '@' := by
      rintro rfl
      apply hat
      obtain ⟨l, l', hr, h1, h2⟩ := h
      cases hl : l ++ [' '] with
      | nil => simp at hl
      | cons c t =>
        rw [hl] at h1
        rw [(charAt_drop h1).1] at e1
        rw [h1, Except.ok.inj e1]
        exact ⟨t, rfl⟩
    refine ⟨i, i', 100, ?_, ?_, Or.inl h, le_refl _, le_refl _⟩
    · simp [parseChar, e1, hd, bind, Except.bind, pure, Except.pure]
    · simp [parseChar, e2, hd, bind, Except.bind, pure, Except.pure]

theorem Near2.comma (h : Near2 cv cv' i i') :
    ∃ b j j', parseChar cv i ',' = .ok (b, j) ∧ parseChar cv' i' ',' = .ok (b, j') ∧ (b = true → Twin cv cv' j j') ∧ i ≤ j ∧ i' ≤ j' := by
  rcases h with h | ⟨c, l, c', l', h1, h2, h3, h4⟩
  · obtain ⟨b, j, j', e1, e2, h1, l1, l1'⟩ := h.char (c := ',') (by decide) (by decide)
    exact ⟨b, j, j', e1, e2, fun _ => h1, l1, l1'⟩
  · exact ⟨false, i, i', parseChar_miss h1 h3, parseChar_miss h2 h4, (fun h => by cases h), le_refl _, le_refl _⟩

theorem Twin.hand (h : Twin cv cv' i i') (hands : List Combo) :
    ∃ ok j j' res, parseHandR cv i hands = .ok (ok, j, res) ∧ parseHand cv' i' hands = .ok (ok, j', res) ∧
      (ok = true → Near2 cv cv' j j' ∧ i < j ∧ i' < j') := by
  unfold parseHand parseHandR
  obtain ⟨b, i1, i1', r1, e1, e1', h1, _, _, p1⟩ := h.rank
  cases b
  · exact ⟨false, i1, i1', hands, by simp [e1, bind, Except.bind, pure, Except.pure], by simp [e1', bind, Except.bind, pure, Except.pure],
      (fun h => by cases h)⟩
  obtain ⟨p1, p1'⟩ := p1 rfl
  obtain ⟨ex, i2, i2', s1, e2, e2', h2, l2, l2'⟩ := h1.suit
  obtain ⟨b, i3, i3', r2, e3, e3', h3, l3, l3', _⟩ := h2.rank
  cases b
  · exact ⟨false, i, i', hands, by simp [e1, e2, e3, bind, Except.bind, pure, Except.pure],
      by simp [e1', e2', e3', bind, Except.bind, pure, Except.pure], (fun h => by cases h)⟩
  cases ex
  · obtain ⟨s, o, i4, i4', e4, e4', h4, l4, l4'⟩ := h3.suffix
    obtain ⟨b, i5, i5', e5, e5', h5, l5, l5'⟩ := h4.char (c := '+') (by decide) (by decide)
    cases b
    · obtain ⟨b, i6, i6', e6, e6', h6, l6, l6'⟩ := h5.char (c := '-') (by decide) (by decide)
      cases b
      · obtain ⟨i7, i7', w, e7, e7', h7, l7, l7'⟩ := h6.weight
        exact ⟨true, i7, i7', _, by simp [e1, e2, e3, e4, e5, e6, e7, bind, Except.bind, pure, Except.pure]; rfl,
          by simp [e1', e2', e3', e4', e5', e6', e7', bind, Except.bind, pure, Except.pure], fun _ => ⟨h7, by omega, by omega⟩⟩
      · obtain ⟨b, i7, i7', r3, r4, e7, e7', h7, l7, l7'⟩ := h6.dash r1 r2 s o
        cases b
        · exact ⟨false, i, i', hands, by simp [e1, e2, e3, e4, e5, e6, e7, bind, Except.bind, pure, Except.pure],
            by simp [e1', e2', e3', e4', e5', e6', e7', bind, Except.bind, pure, Except.pure], (fun h => by cases h)⟩
        · obtain ⟨i8, i8', w, e8, e8', h8, l8, l8'⟩ := h7.weight
          exact ⟨true, i8, i8', _, by simp [e1, e2, e3, e4, e5, e6, e7, e8, bind, Except.bind, pure, Except.pure]; rfl,
            by simp [e1', e2', e3', e4', e5', e6', e7', e8', bind, Except.bind, pure, Except.pure], fun _ => ⟨h8, by omega, by omega⟩⟩
    · obtain ⟨i7, i7', w, e7, e7', h7, l7, l7'⟩ := h5.weight
      exact ⟨true, i7, i7', _, by simp [e1, e2, e3, e4, e5, e7, bind, Except.bind, pure, Except.pure]; rfl,
        by simp [e1', e2', e3', e4', e5', e7', bind, Except.bind, pure, Except.pure], fun _ => ⟨h7, by omega, by omega⟩⟩
  · obtain ⟨b, i4, i4', s2, e4, e4', h4, l4, l4'⟩ := h3.suit
    cases b
    · exact ⟨false, i, i', hands, by simp [e1, e2, e3, e4, bind, Except.bind, pure, Except.pure],
        by simp [e1', e2', e3', e4', bind, Except.bind, pure, Except.pure], (fun h => by cases h)⟩
    by_cases hcc : 4 * r1 + s1 = 4 * r2 + s2
    · exact ⟨false, i, i', hands, by simp [e1, e2, e3, e4, hcc, bind, Except.bind, pure, Except.pure],
        by simp [e1', e2', e3', e4', hcc, bind, Except.bind, pure, Except.pure], (fun h => by cases h)⟩
    · obtain ⟨i7, i7', w, e7, e7', h7, l7, l7'⟩ := h4.weight
      exact ⟨true, i7, i7', _, by simp [e1, e2, e3, e4, e7, hcc, bind, Except.bind, pure, Except.pure]; rfl,
        by simp [e1', e2', e3', e4', e7', hcc, bind, Except.bind, pure, Except.pure], fun _ => ⟨h7, by omega, by omega⟩⟩

theorem Twin.loop (fuel : Nat) : ∀ (fuel' i i' : Nat) (hands : List Combo), Twin cv cv' i i' → cv.length < i + fuel → cv'.length < i' + fuel' →
    ∃ res, parseLoopR cv fuel i hands = .ok res ∧ parseLoop cv' fuel' i' hands = .ok res := by
  induction fuel with
  | zero => intro fuel' i i' hands h hf; have := h.lt; omega
  | succ fuel ih =>
    intro fuel' i i' hands h hf hf'
    obtain ⟨fuel', rfl⟩ : ∃ f, fuel' = f + 1 := ⟨fuel' - 1, by have := h.lt; omega⟩
    rw [parseLoop, parseLoopR]
    obtain ⟨ok, j, j', res, e1, e2, hk⟩ := h.hand hands
    cases ok
    · exact ⟨res, by simp [e1, bind, Except.bind, pure, Except.pure], by simp [e2, bind, Except.bind, pure, Except.pure]⟩
    obtain ⟨hn, p, p'⟩ := hk rfl
    obtain ⟨b, k, k', e3, e4, ht, l, l'⟩ := hn.comma
    cases b
    · exact ⟨res, by simp [e1, e3, bind, Except.bind, pure, Except.pure], by simp [e2, e4, bind, Except.bind, pure, Except.pure]⟩
    · obtain ⟨res', g1, g2⟩ := ih fuel' k k' res (ht rfl) (by omega) (by omega)
      exact ⟨res', by simp [e1, e3, g1, bind, Except.bind], by simp [e2, e4, g2, bind, Except.bind]⟩

theorem fromStringR_reduced (lower : List Char → List Char) (text l' : List Char) (h : Reduced (lower text) l') :
    ∃ res, fromStringR lower text = .ok res ∧ fromString (fun _ => l') text = .ok res := by
  unfold fromString fromStringR
  split_ifs
  · exact ⟨_, rfl, rfl⟩
  · have ht : Twin (lower text ++ [' ']) (l' ++ [' ']) 0 0 := ⟨_, _, h, rfl, rfl⟩
    obtain ⟨res, e1, e2⟩ := ht.loop ((lower text ++ [' ']).length + 1) ((l' ++ [' ']).length + 1) 0 0 [] (by omega) (by omega)
    exact ⟨removeDuplicates res, by simp only [e1]; rfl, by simp only [e2]; rfl⟩

/-- Ten digits of a number. -/
def tenDigits (n : Nat) : List Nat :=
  [n / 10 ^ 9 % 10, n / 10 ^ 8 % 10, n / 10 ^ 7 % 10, n / 10 ^ 6 % 10, n / 10 ^ 5 % 10, n / 10 ^ 4 % 10, n / 10 ^ 3 % 10, n / 10 ^ 2 % 10,
    n / 10 % 10, n % 10]

theorem tenDigits_lt (n : Nat) : ∀ d ∈ tenDigits n, d < 10 := by
  intro d hd
  simp only [tenDigits, List.mem_cons, List.not_mem_nil, or_false] at hd
  omega

theorem tenDigits_decimal {n : Nat} (h : n < 2 ^ 32) : decimal (tenDigits n) = n := by
  simp only [decimal, tenDigits, List.foldl_cons, List.foldl_nil]
  omega

theorem reduced_exists : ∀ (n : Nat) (l : List Char), l.length ≤ n → ∃ l', Reduced l l' ∧ (¬ BeginsDigit l → ¬ BeginsDigit l') := by
  intro n
  induction n with
  | zero =>
    intro l hl
    obtain rfl := List.length_eq_zero_iff.1 (Nat.le_zero.1 hl)
    exact ⟨[], .nil, id⟩
  | succ n ih =>
    intro l hl
    cases l with
    | nil => exact ⟨[], .nil, id⟩
    | cons c l =>
      by_cases hc : c = '@'
      · subst hc
        obtain ⟨ds, rest, rfl, h1, h2⟩ := split_digits l
        obtain ⟨l', hr, hb⟩ := ih rest (by simp at hl; omega)
        have hno : ∀ t, ¬ BeginsDigit ('@' :: t) := by
          rintro t ⟨d, hd, hb⟩
          have : ∀ d < 10, '@' ≠ digitChar d := by decide
          exact this d hd (Option.some.inj hb)
        by_cases hds : ds = []
        · subst hds
          exact ⟨_, .weight (ds := []) (ds' := []) (by simp) (by simp) (by decide) (by simp) h2 (hb h2) hr, fun _ => hno _⟩
        · exact ⟨_, .weight (ds' := tenDigits (decimal ds % 2 ^ 32)) h1 (tenDigits_lt _)
            (tenDigits_decimal (Nat.mod_lt _ (by norm_num))) (by simp [hds, tenDigits]) h2 (hb h2) hr, fun _ => hno _⟩
      · obtain ⟨l', hr, _⟩ := ih l (by simp at hl; omega)
        refine ⟨c :: l', .other hc hr, ?_⟩
        rintro h ⟨d, hd, hb⟩
        exact h ⟨d, hd, hb⟩

end Pokers
