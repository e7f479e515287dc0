import Verif.Model.LowerCase
import Verif.Model.ReleaseText
import Mathlib.Tactic.IntervalCases
/-! Reading a text stops at the first letter that does not occur in range texts. -/
namespace Pokers

/-- The letters of range texts. -/
def rangeLetters : List Char := ['a', 'k', 'q', 'j', 't', '9', '8', '7', '6', '5', '4', '3', '2', '1', '0', 's', 'h', 'c', 'd', 'o', '+', '-', '@', ',']

theorem foreign_rank {c : Char} (h : c ∉ rangeLetters) : charToRank c = 255 := by
  simp only [rangeLetters, List.mem_cons, not_or] at h
  unfold charToRank
  simp only [h, if_false]

theorem foreign_suit {c : Char} (h : c ∉ rangeLetters) : charToSuit c = 255 := by
  simp only [rangeLetters, List.mem_cons, not_or] at h
  unfold charToSuit
  simp only [h, if_false]

theorem foreign_digit {c : Char} (h : c ∉ rangeLetters) : toDigit c = none := by
  unfold toDigit
  split_ifs with hd
  · exfalso
    obtain ⟨h1, h2⟩ := hd
    have h1 : 48 ≤ c.toNat := h1
    have h2 : c.toNat ≤ 57 := h2
    have hc : Char.ofNat c.toNat = c := Char.ofNat_toNat c
    apply h
    rw [← hc]
    generalize c.toNat = n at *
    interval_cases n <;> decide
  · rfl

/-- Two computations with the same outcome, which satisfies `P`. -/
def Both {α : Type} (P : α → Prop) (x y : Except Panic α) : Prop := x = y ∧ ∀ r, x = .ok r → P r

theorem Both.bind {α β : Type} {P : α → Prop} {Q : β → Prop} {x y : Except Panic α} {f g : α → Except Panic β} (h : Both P x y)
    (hf : ∀ a, P a → Both Q (f a) (g a)) : Both Q (x >>= f) (y >>= g) := by
  obtain ⟨rfl, h2⟩ := h
  cases x with
  | error e => exact ⟨rfl, fun r h => nomatch h⟩
  | ok a => exact hf a (h2 a rfl)

theorem Both.ite {α : Type} {P : α → Prop} {c : Prop} [Decidable c] {x y x' y' : Except Panic α} (h : Both P x y) (h' : Both P x' y') :
    Both P (if c then x else x') (if c then y else y') := by
  split_ifs
  · exact h
  · exact h'

theorem Both.pure {α : Type} {P : α → Prop} {a : α} (h : P a) : Both P (Pure.pure a) (Pure.pure a) := by
  refine ⟨rfl, fun r hr => ?_⟩
  cases hr
  exact h

/-- The texts agree before position `n`, and have foreign letters there. -/
structure Agree (n : Nat) (cv cv' : List Char) : Prop where
  before : ∀ i < n, cv[i]? = cv'[i]?
  left : ∃ c, cv[n]? = some c ∧ c ∉ rangeLetters
  right : ∃ c, cv'[n]? = some c ∧ c ∉ rangeLetters

section
variable {n k : Nat} {cv cv' : List Char} (h : Agree n cv cv')
include h

theorem Agree.charAt {i : Nat} (hi : i ≤ n) : (∃ c, charAt cv i = .ok c ∧ Pokers.charAt cv' i = .ok c ∧ i < n) ∨
    ∃ c c', Pokers.charAt cv i = .ok c ∧ Pokers.charAt cv' i = .ok c' ∧ c ∉ rangeLetters ∧ c' ∉ rangeLetters := by
  obtain ⟨c, h1, h2⟩ := h.left
  obtain ⟨c', h3, h4⟩ := h.right
  rcases Nat.lt_or_ge i n with hlt | hge
  · have hn : n < cv.length := (List.getElem?_eq_some_iff.1 h1).1
    have hx : cv[i]? = some cv[i] := List.getElem?_eq_getElem (by omega)
    refine Or.inl ⟨cv[i], ?_, ?_, hlt⟩
    · unfold Pokers.charAt; rw [hx]
    · unfold Pokers.charAt; rw [← h.before i hlt, hx]
  · have : i = n := by omega
    subst this
    exact Or.inr ⟨c, c', by unfold Pokers.charAt; rw [h1], by unfold Pokers.charAt; rw [h3], h2, h4⟩

theorem Agree.char {i : Nat} (hi : k ≤ i ∧ i ≤ n) {c : Char} (hc : c ∈ rangeLetters) :
    Both (fun r => k ≤ r.2 ∧ r.2 ≤ n) (parseChar cv i c) (parseChar cv' i c) := by
  unfold parseChar
  rcases h.charAt hi.2 with ⟨x, h1, h2, hlt⟩ | ⟨x, x', h1, h2, h3, h4⟩
  · rw [h1, h2]
    refine Both.bind (P := fun _ => True) ⟨rfl, fun _ _ => trivial⟩ fun a _ => Both.ite (Both.pure ?_) (Both.pure hi)
    exact ⟨by have := hi.1; simp only; omega, hlt⟩
  · rw [h1, h2]
    show Both _ (if x = c then _ else _) (if x' = c then _ else _)
    have g3 : x ≠ c := fun e => h3 (e ▸ hc)
    have g4 : x' ≠ c := fun e => h4 (e ▸ hc)
    rw [if_neg g3, if_neg g4]
    exact Both.pure hi

theorem Agree.rank {i : Nat} (hi : k ≤ i ∧ i ≤ n) : Both (fun r => k ≤ r.2.1 ∧ r.2.1 ≤ n) (parseRank cv i) (parseRank cv' i) := by
  unfold parseRank
  rcases h.charAt hi.2 with ⟨x, h1, h2, hlt⟩ | ⟨x, x', h1, h2, h3, h4⟩
  · rw [h1, h2]
    refine Both.bind (P := fun _ => True) ⟨rfl, fun _ _ => trivial⟩ fun a _ => Both.ite (Both.pure hi) (Both.pure ?_)
    exact ⟨by have := hi.1; simp only; omega, hlt⟩
  · rw [h1, h2]
    show Both _ (if charToRank x = 255 then _ else _) (if charToRank x' = 255 then _ else _)
    rw [foreign_rank h3, foreign_rank h4]
    exact Both.pure hi

theorem Agree.suit {i : Nat} (hi : k ≤ i ∧ i ≤ n) : Both (fun r => k ≤ r.2.1 ∧ r.2.1 ≤ n) (parseSuit cv i) (parseSuit cv' i) := by
  unfold parseSuit
  rcases h.charAt hi.2 with ⟨x, h1, h2, hlt⟩ | ⟨x, x', h1, h2, h3, h4⟩
  · rw [h1, h2]
    refine Both.bind (P := fun _ => True) ⟨rfl, fun _ _ => trivial⟩ fun a _ => Both.ite (Both.pure hi) (Both.pure ?_)
    exact ⟨by have := hi.1; simp only; omega, hlt⟩
  · rw [h1, h2]
    show Both _ (if charToSuit x = 255 then _ else _) (if charToSuit x' = 255 then _ else _)
    rw [foreign_suit h3, foreign_suit h4]
    exact Both.pure hi

theorem Agree.weightLoop {b w : Nat} (hb : k ≤ b ∧ b ≤ n) : ∀ (f f' i number : Nat), (k ≤ i ∧ i ≤ n) → n < i + f → n < i + f' →
    Both (fun r => k ≤ r.2.1 ∧ r.2.1 ≤ n) (parseWeightLoop cv b w f i number) (parseWeightLoop cv' b w f' i number)
  | 0, _, i, _, _, hf, _ => by omega
  | _, 0, i, _, _, _, hf => by omega
  | f + 1, f' + 1, i, number, hi, hf, hf' => by
    rw [parseWeightLoop, parseWeightLoop]
    rcases h.charAt hi.2 with ⟨x, h1, h2, hlt⟩ | ⟨x, x', h1, h2, h3, h4⟩
    · rw [h1, h2]
      refine Both.bind (P := fun _ => True) ⟨rfl, fun _ _ => trivial⟩ fun a _ => ?_
      split
      · exact Both.ite (Both.ite (Agree.weightLoop hb f f' (i + 1) _ ⟨by omega, by omega⟩ (by omega) (by omega)) ⟨rfl, fun r h => nomatch h⟩)
          ⟨rfl, fun r h => nomatch h⟩
      · exact Both.ite (Both.pure hb) (Both.pure hi)
    · rw [h1, h2]
      simp only [bind, Except.bind, foreign_digit h3, foreign_digit h4]
      exact Both.ite (Both.pure hb) (Both.pure hi)

theorem Agree.weightLoopR {b w : Nat} (hb : k ≤ b ∧ b ≤ n) : ∀ (f f' i number : Nat), (k ≤ i ∧ i ≤ n) → n < i + f → n < i + f' →
    Both (fun r => k ≤ r.2.1 ∧ r.2.1 ≤ n) (parseWeightLoopR cv b w f i number) (parseWeightLoopR cv' b w f' i number)
  | 0, _, i, _, _, hf, _ => by omega
  | _, 0, i, _, _, _, hf => by omega
  | f + 1, f' + 1, i, number, hi, hf, hf' => by
    rw [parseWeightLoopR, parseWeightLoopR]
    rcases h.charAt hi.2 with ⟨x, h1, h2, hlt⟩ | ⟨x, x', h1, h2, h3, h4⟩
    · rw [h1, h2]
      refine Both.bind (P := fun _ => True) ⟨rfl, fun _ _ => trivial⟩ fun a _ => ?_
      split
      · exact Agree.weightLoopR hb f f' (i + 1) _ ⟨by omega, by omega⟩ (by omega) (by omega)
      · exact Both.ite (Both.pure hb) (Both.pure hi)
    · rw [h1, h2]
      simp only [bind, Except.bind, foreign_digit h3, foreign_digit h4]
      exact Both.ite (Both.pure hb) (Both.pure hi)

theorem Agree.lengths : n < cv.length ∧ n < cv'.length := by
  obtain ⟨c, h1, _⟩ := h.left
  obtain ⟨c', h2, _⟩ := h.right
  exact ⟨(List.getElem?_eq_some_iff.1 h1).1, (List.getElem?_eq_some_iff.1 h2).1⟩

theorem Agree.atWeight {i w : Nat} (hi : k ≤ i ∧ i ≤ n) : Both (fun r => k ≤ r.1 ∧ r.1 ≤ n) (parseAtWeight cv i w) (parseAtWeight cv' i w) := by
  obtain ⟨l1, l2⟩ := h.lengths
  unfold parseAtWeight parseWeight
  refine Both.bind (h.char hi (by decide)) fun p hp => Both.ite ?_ (Both.pure hp)
  exact Both.bind (h.weightLoop hp _ _ _ _ hp (by omega) (by omega)) fun q hq => Both.pure hq

theorem Agree.atWeightR {i w : Nat} (hi : k ≤ i ∧ i ≤ n) : Both (fun r => k ≤ r.1 ∧ r.1 ≤ n) (parseAtWeightR cv i w) (parseAtWeightR cv' i w) := by
  obtain ⟨l1, l2⟩ := h.lengths
  unfold parseAtWeightR parseWeightR
  refine Both.bind (h.char hi (by decide)) fun p hp => Both.ite ?_ (Both.pure hp)
  exact Both.bind (h.weightLoopR hp _ _ _ _ hp (by omega) (by omega)) fun q hq => Both.pure hq

theorem Agree.suffix {i : Nat} (hi : k ≤ i ∧ i ≤ n) : Both (fun r => k ≤ r.2.2 ∧ r.2.2 ≤ n) (parseSuffix cv i) (parseSuffix cv' i) := by
  unfold parseSuffix
  refine Both.bind (h.char hi (by decide)) fun p hp => Both.ite (Both.pure hp) ?_
  exact Both.bind (h.char hp (by decide)) fun q hq => Both.ite (Both.pure hq) (Both.pure hq)

theorem Agree.dash {i : Nat} (hi : k ≤ i ∧ i ≤ n) (r1 r2 : Nat) (s o : Bool) :
    Both (fun r => k ≤ r.2.1 ∧ r.2.1 ≤ n) (parseCombosDash cv r1 r2 s o i) (parseCombosDash cv' r1 r2 s o i) := by
  unfold parseCombosDash
  refine Both.bind (h.rank hi) fun p hp => Both.ite (Both.pure hp) ?_
  refine Both.bind (h.rank hp) fun p hp => Both.ite (Both.pure hp) ?_
  refine Both.bind (h.char hp (by decide)) fun p hp => Both.ite (Both.pure hp) (Both.ite (Both.pure hp) ?_)
  refine Both.bind (h.char hp (by decide)) fun p hp => Both.ite (Both.pure hp) (Both.ite (Both.pure hp) ?_)
  exact Both.ite (Both.pure hp) (Both.ite (Both.pure hp) (Both.ite (Both.pure hp) (Both.ite (Both.pure hp) (Both.pure hp))))

theorem Agree.hand {i : Nat} (hi : k ≤ i ∧ i ≤ n) (hands : List Combo) :
    Both (fun r => k ≤ r.2.1 ∧ r.2.1 ≤ n) (parseHand cv i hands) (parseHand cv' i hands) := by
  unfold parseHand
  refine Both.bind (h.rank hi) fun p hp => Both.ite (Both.pure hp) ?_
  refine Both.bind (h.suit hp) fun p hp => ?_
  refine Both.bind (h.rank hp) fun p hp => Both.ite (Both.pure hi) (Both.ite ?_ ?_)
  · refine Both.bind (h.suit hp) fun p hp => Both.ite (Both.pure hi) (Both.ite (Both.pure hi) ?_)
    exact Both.bind (h.atWeight hp) fun p hp => Both.pure hp
  · refine Both.bind (h.suffix hp) fun p hp => ?_
    refine Both.bind (h.char hp (by decide)) fun p hp => Both.ite (Both.bind (h.atWeight hp) fun p hp => Both.pure hp) ?_
    refine Both.bind (h.char hp (by decide)) fun p hp => Both.ite ?_ (Both.bind (h.atWeight hp) fun p hp => Both.pure hp)
    refine Both.bind (h.dash hp _ _ _ _) fun p hp => Both.ite (Both.pure hi) ?_
    exact Both.bind (h.atWeight hp) fun p hp => Both.pure hp

theorem Agree.handR {i : Nat} (hi : k ≤ i ∧ i ≤ n) (hands : List Combo) :
    Both (fun r => k ≤ r.2.1 ∧ r.2.1 ≤ n) (parseHandR cv i hands) (parseHandR cv' i hands) := by
  unfold parseHandR
  refine Both.bind (h.rank hi) fun p hp => Both.ite (Both.pure hp) ?_
  refine Both.bind (h.suit hp) fun p hp => ?_
  refine Both.bind (h.rank hp) fun p hp => Both.ite (Both.pure hi) (Both.ite ?_ ?_)
  · refine Both.bind (h.suit hp) fun p hp => Both.ite (Both.pure hi) (Both.ite (Both.pure hi) ?_)
    exact Both.bind (h.atWeightR hp) fun p hp => Both.pure hp
  · refine Both.bind (h.suffix hp) fun p hp => ?_
    refine Both.bind (h.char hp (by decide)) fun p hp => Both.ite (Both.bind (h.atWeightR hp) fun p hp => Both.pure hp) ?_
    refine Both.bind (h.char hp (by decide)) fun p hp => Both.ite ?_ (Both.bind (h.atWeightR hp) fun p hp => Both.pure hp)
    refine Both.bind (h.dash hp _ _ _ _) fun p hp => Both.ite (Both.pure hi) ?_
    exact Both.bind (h.atWeightR hp) fun p hp => Both.pure hp

theorem Agree.comma {i : Nat} (hi : k ≤ i ∧ i ≤ n) :
    Both (fun r => k ≤ r.2 ∧ r.2 ≤ n ∧ (r.1 = true → i < r.2)) (parseChar cv i ',') (parseChar cv' i ',') := by
  unfold parseChar
  rcases h.charAt hi.2 with ⟨x, h1, h2, hlt⟩ | ⟨x, x', h1, h2, h3, h4⟩
  · rw [h1, h2]
    refine Both.bind (P := fun _ => True) ⟨rfl, fun _ _ => trivial⟩ fun a _ => Both.ite (Both.pure ?_) (Both.pure ⟨hi.1, hi.2, fun h => nomatch h⟩)
    exact ⟨by have := hi.1; simp only; omega, hlt, fun _ => Nat.lt_succ_self i⟩
  · rw [h1, h2]
    show Both _ (if x = ',' then _ else _) (if x' = ',' then _ else _)
    have hc : ',' ∈ rangeLetters := by decide
    have g3 : x ≠ ',' := fun e => h3 (e ▸ hc)
    have g4 : x' ≠ ',' := fun e => h4 (e ▸ hc)
    rw [if_neg g3, if_neg g4]
    exact Both.pure ⟨hi.1, hi.2, fun h => nomatch h⟩

omit h in
theorem Agree.loop (h : Agree n cv cv') : ∀ (f f' i : Nat) (hands : List Combo), i ≤ n → n < i + f → n < i + f' →
    parseLoop cv f i hands = parseLoop cv' f' i hands
  | 0, _, i, _, _, hf, _ => by omega
  | _, 0, i, _, _, _, hf => by omega
  | f + 1, f' + 1, i, hands, hi, hf, hf' => by
    rw [parseLoop, parseLoop]
    refine (Both.bind (Q := fun _ => True) (h.hand ⟨Nat.le_refl i, hi⟩ hands) fun p hp => ?_).1
    refine Both.ite (Both.bind (h.comma hp) fun q hq => ?_) (Both.pure trivial)
    by_cases hq1 : q.1 = true
    · have h7 : i < q.2 := Nat.lt_of_le_of_lt hp.1 (hq.2.2 hq1)
      simp only [hq1, if_true]
      exact ⟨Agree.loop h f f' q.2 _ hq.2.1 (by omega) (by omega), fun _ _ => trivial⟩
    · simp only [hq1]
      exact Both.pure trivial

omit h in
theorem Agree.loopR (h : Agree n cv cv') : ∀ (f f' i : Nat) (hands : List Combo), i ≤ n → n < i + f → n < i + f' →
    parseLoopR cv f i hands = parseLoopR cv' f' i hands
  | 0, _, i, _, _, hf, _ => by omega
  | _, 0, i, _, _, _, hf => by omega
  | f + 1, f' + 1, i, hands, hi, hf, hf' => by
    rw [parseLoopR, parseLoopR]
    refine (Both.bind (Q := fun _ => True) (h.handR ⟨Nat.le_refl i, hi⟩ hands) fun p hp => ?_).1
    refine Both.ite (Both.bind (h.comma hp) fun q hq => ?_) (Both.pure trivial)
    by_cases hq1 : q.1 = true
    · have h7 : i < q.2 := Nat.lt_of_le_of_lt hp.1 (hq.2.2 hq1)
      simp only [hq1, if_true]
      exact ⟨Agree.loopR h f f' q.2 _ hq.2.1 (by omega) (by omega), fun _ _ => trivial⟩
    · simp only [hq1]
      exact Both.pure trivial

end
end Pokers
