import Verif.Model.RawRanges
import Verif.Props.Unchecked
/-!
# Ranges built by hand (C87)
-/
namespace Pokers
open Spec

/-- The card numbers as `remove_conflicting_combos` sees them: a shift by 64 or more is taken modulo 64 in a release build. -/
def clash (taken : Nat) (x : Combo) : Prop := taken.testBit (x.c1 % 64) = true ∨ taken.testBit (x.c2 % 64) = true

instance (taken : Nat) : DecidablePred (clash taken) := fun x => by unfold clash; infer_instance

/-- A hand with a number of 64 or more. -/
def wide (x : Combo) : Prop := 64 ≤ x.c1 ∨ 64 ≤ x.c2

/-- A hand with a number that is no card. -/
def foreign (x : Combo) : Prop := 52 ≤ x.c1 ∨ 52 ≤ x.c2

/-- Twice the card 0. -/
def twiceZero (x : Combo) : Prop := x.c1 = 0 ∧ x.c2 = 0

instance : DecidablePred wide := fun x => by unfold wide; infer_instance
instance : DecidablePred foreign := fun x => by unfold foreign; infer_instance
instance : DecidablePred twiceZero := fun x => by unfold twiceZero; infer_instance

/-- The hands that stay. -/
def kept (taken : Nat) (ranges : List (List Combo)) : List (List Combo) :=
  ranges.map fun r => r.filter fun x => ¬ clash taken x

/-- What a check does in a debug build, and what happens in a release build in its place. -/
def failB {α : Type} : Profile → Ran α
  | .debug => .panic
  | .release => .undefined

theorem two_bits (a b t : Nat) : ((1 <<< a) ||| (1 <<< b)) &&& t = 0 ↔ ¬ (t.testBit a = true ∨ t.testBit b = true) := by
  rw [Nat.and_or_distrib_right, Nat.or_eq_zero_iff]
  have h1 := and_one_ne_zero a t
  have h2 := and_one_ne_zero b t
  rw [not_or, ← h1, ← h2, not_not, not_not]

theorem keepB_eq {m : Profile} {taken : Nat} {r : List Combo} (h : m = .debug → ∀ x ∈ r, ¬ wide x) :
    keepB m taken r = .ok (r.filter fun x => ¬ clash taken x) := by
  induction r with
  | nil => rfl
  | cons x xs ih =>
    have hs : shiftB m 64 x.c1 = .ok (x.c1 % 64) ∧ shiftB m 64 x.c2 = .ok (x.c2 % 64) := by
      cases m with
      | release => exact ⟨shiftB_release _ _, shiftB_release _ _⟩
      | debug =>
        have := h rfl x List.mem_cons_self
        unfold wide at this
        rw [shiftB_ok (by omega), shiftB_ok (by omega), Nat.mod_eq_of_lt (by omega), Nat.mod_eq_of_lt (by omega)]
        exact ⟨rfl, rfl⟩
    unfold keepB
    rw [hs.1, hs.2, Ran.bind_ok, Ran.bind_ok, ih (fun hm y hy => h hm y (List.mem_cons_of_mem _ hy)), Ran.bind_ok, Ran.pure_eq]
    simp only [two_bits]
    by_cases hc : clash taken x
    · rw [if_neg (not_not.2 (show _ ∨ _ from hc)), List.filter_cons_of_neg (by simpa using hc)]
    · rw [if_pos (show ¬ (_ ∨ _) from hc), List.filter_cons_of_pos (by simpa using hc)]

theorem keepB_panic {taken : Nat} {r : List Combo} (h : ∃ x ∈ r, wide x) : keepB .debug taken r = .panic := by
  induction r with
  | nil => simp at h
  | cons x xs ih =>
    unfold keepB
    by_cases h1 : x.c1 < 64
    · rw [shiftB_ok h1, Ran.bind_ok]
      by_cases h2 : x.c2 < 64
      · obtain ⟨y, hy, hw⟩ := h
        rcases List.mem_cons.1 hy with rfl | hy
        · unfold wide at hw; omega
        · rw [shiftB_ok h2, Ran.bind_ok, ih ⟨y, hy, hw⟩]; rfl
      · rw [shiftB_debug h2]; rfl
    · rw [shiftB_debug h1]; rfl

theorem keepAllB_eq {m : Profile} {taken : Nat} {rs : List (List Combo)} (h : m = .debug → ∀ r ∈ rs, ∀ x ∈ r, ¬ wide x) :
    keepAllB m taken rs = .ok (kept taken rs) := by
  induction rs with
  | nil => rfl
  | cons r rs ih =>
    unfold keepAllB
    rw [keepB_eq (fun hm => h hm r List.mem_cons_self), Ran.bind_ok, ih (fun hm q hq => h hm q (List.mem_cons_of_mem _ hq))]
    rfl

theorem keepAllB_panic {taken : Nat} {rs : List (List Combo)} (h : ∃ r ∈ rs, ∃ x ∈ r, wide x) :
    keepAllB .debug taken rs = .panic := by
  induction rs with
  | nil => simp at h
  | cons r rs ih =>
    unfold keepAllB
    by_cases hr : ∃ x ∈ r, wide x
    · rw [keepB_panic hr]; rfl
    · obtain ⟨q, hq, hx⟩ := h
      rcases List.mem_cons.1 hq with rfl | hq
      · exact absurd hx hr
      · rw [keepB_eq (fun _ x hxr hw => hr ⟨x, hxr, hw⟩), Ran.bind_ok, ih ⟨q, hq, hx⟩]; rfl

theorem buildB_ok {m : Profile} {r : List Combo} (h : ∀ x ∈ r, ¬ foreign x) : buildB m r = .ok () := by
  induction r with
  | nil => rfl
  | cons x xs ih =>
    have hx := h x List.mem_cons_self
    unfold foreign at hx
    unfold buildB
    rw [shiftB_ok (by omega), Ran.bind_ok, shiftB_ok (by omega), Ran.bind_ok, C86_hole_cards, if_pos (by omega), Ran.bind_ok]
    exact ih (fun y hy => h y (List.mem_cons_of_mem _ hy))

theorem buildB_panic {m : Profile} {r : List Combo} (h : ∃ x ∈ r, foreign x) : buildB m r = .panic := by
  induction r with
  | nil => simp at h
  | cons x xs ih =>
    unfold buildB
    have hs : ∀ c, shiftB m 64 c = .panic ∨ ∃ k, shiftB m 64 c = .ok k := by
      intro c
      cases m with
      | release => exact Or.inr ⟨_, shiftB_release _ _⟩
      | debug =>
        by_cases hc : c < 64
        · exact Or.inr ⟨_, shiftB_ok hc⟩
        · exact Or.inl (shiftB_debug hc)
    rcases hs x.c1 with h1 | ⟨k1, h1⟩
    · rw [h1]; rfl
    · rcases hs x.c2 with h2 | ⟨k2, h2⟩
      · rw [h1, h2]; rfl
      · rw [h1, Ran.bind_ok, h2, Ran.bind_ok, C86_hole_cards]
        by_cases hc : x.c1 < 52 ∧ x.c2 < 52
        · rw [if_pos hc, Ran.bind_ok]
          obtain ⟨y, hy, hf⟩ := h
          rcases List.mem_cons.1 hy with rfl | hy
          · unfold foreign at hf; omega
          · exact ih ⟨y, hy, hf⟩
        · rw [if_neg hc]; rfl

theorem buildAllB_ok {m : Profile} {rs : List (List Combo)} (h : ∀ r ∈ rs, ∀ x ∈ r, ¬ foreign x) : buildAllB m rs = .ok () := by
  induction rs with
  | nil => rfl
  | cons r rs ih =>
    unfold buildAllB
    rw [buildB_ok (h r List.mem_cons_self), Ran.bind_ok]
    exact ih (fun q hq => h q (List.mem_cons_of_mem _ hq))

theorem buildAllB_panic {m : Profile} {rs : List (List Combo)} (h : ∃ r ∈ rs, ∃ x ∈ r, foreign x) : buildAllB m rs = .panic := by
  induction rs with
  | nil => simp at h
  | cons r rs ih =>
    unfold buildAllB
    by_cases hr : ∃ x ∈ r, foreign x
    · rw [buildB_panic hr]; rfl
    · obtain ⟨q, hq, hx⟩ := h
      rcases List.mem_cons.1 hq with rfl | hq
      · exact absurd hx hr
      · rw [buildB_ok (fun x hxr hw => hr ⟨x, hxr, hw⟩), Ran.bind_ok]
        exact ih ⟨q, hq, hx⟩

theorem indicesB_eq {m : Profile} {r : List Combo} (h : ∀ x ∈ r, ¬ foreign x) :
    indicesB m r = if ∃ x ∈ r, twiceZero x then failB m else .ok () := by
  induction r with
  | nil => simp [indicesB]
  | cons x xs ih =>
    have hx := h x List.mem_cons_self
    unfold foreign at hx
    unfold indicesB
    rw [C86_card_index_deck (by omega) (by omega)]
    by_cases h0 : x.c1 = 0 ∧ x.c2 = 0
    · rw [if_pos h0, if_pos ⟨x, List.mem_cons_self, h0⟩]
      cases m <;> rfl
    · rw [if_neg h0, Ran.bind_ok, ih (fun y hy => h y (List.mem_cons_of_mem _ hy))]
      have : (∃ y ∈ x :: xs, twiceZero y) ↔ ∃ y ∈ xs, twiceZero y := by
        constructor
        · rintro ⟨y, hy, hz⟩
          rcases List.mem_cons.1 hy with rfl | hy
          · exact absurd hz h0
          · exact ⟨y, hy, hz⟩
        · rintro ⟨y, hy, hz⟩
          exact ⟨y, List.mem_cons_of_mem _ hy, hz⟩
      simp only [this]

theorem indicesAllB_eq {m : Profile} {rs : List (List Combo)} (h : ∀ r ∈ rs, ∀ x ∈ r, ¬ foreign x) :
    indicesAllB m rs = if ∃ r ∈ rs, ∃ x ∈ r, twiceZero x then failB m else .ok () := by
  induction rs with
  | nil => simp [indicesAllB]
  | cons r rs ih =>
    unfold indicesAllB
    rw [indicesB_eq (h r List.mem_cons_self)]
    by_cases hr : ∃ x ∈ r, twiceZero x
    · rw [if_pos hr, if_pos ⟨r, List.mem_cons_self, hr⟩]
      cases m <;> rfl
    · rw [if_neg hr, Ran.bind_ok, ih (fun q hq => h q (List.mem_cons_of_mem _ hq))]
      have : (∃ q ∈ r :: rs, ∃ x ∈ q, twiceZero x) ↔ ∃ q ∈ rs, ∃ x ∈ q, twiceZero x := by
        constructor
        · rintro ⟨q, hq, hz⟩
          rcases List.mem_cons.1 hq with rfl | hq
          · exact absurd hz hr
          · exact ⟨q, hq, hz⟩
        · rintro ⟨q, hq, hz⟩
          exact ⟨q, List.mem_cons_of_mem _ hq, hz⟩
      simp only [this]

section
variable {ranges : List (List Combo)} {b d : Nat}

/-- The start of `exact_equity` for any ranges, masks and number of players:
* a debug build panics if a hand has a number of 64 or more;
* otherwise both builds panic if one of the remaining hands has a number that is no card;
* otherwise, if the hands can be combined and one of them is twice the card 0, a debug build panics and a release build reads outside
  `CARD_MAP`;
* otherwise the simulator is created as in `prepareExact`. -/
theorem C87_start (m : Profile) (hv : validate ranges.length b d = none) :
    startB m ranges b d =
      if m = .debug ∧ ∃ r ∈ ranges, ∃ x ∈ r, wide x then .panic
      else if ∃ r ∈ kept (b ||| d) ranges, ∃ x ∈ r, foreign x then .panic
      else if (CombinedRange.fromRanges (kept (b ||| d) ranges)).any (fun cr => cr.size == 0) then .ok (.error .ConflictingRanges)
      else if ∃ r ∈ kept (b ||| d) ranges, ∃ x ∈ r, twiceZero x then failB m
      else .ok (.ok (Sim.new (kept (b ||| d) ranges) (CombinedRange.fromRanges (kept (b ||| d) ranges)) b d true)) := by
  unfold startB
  simp only [hv]
  by_cases hw : m = .debug ∧ ∃ r ∈ ranges, ∃ x ∈ r, wide x
  · rw [if_pos hw]
    obtain ⟨rfl, hw⟩ := hw
    rw [keepAllB_panic hw]
    rfl
  · rw [if_neg hw, keepAllB_eq (fun hm r hr x hx hxw => hw ⟨hm, r, hr, x, hx, hxw⟩), Ran.bind_ok]
    by_cases hf : ∃ r ∈ kept (b ||| d) ranges, ∃ x ∈ r, foreign x
    · rw [if_pos hf, buildAllB_panic hf]
      rfl
    · have hf' : ∀ r ∈ kept (b ||| d) ranges, ∀ x ∈ r, ¬ foreign x := fun r hr x hx h => hf ⟨r, hr, x, hx, h⟩
      rw [if_neg hf, buildAllB_ok hf', Ran.bind_ok]
      by_cases hs : (CombinedRange.fromRanges (kept (b ||| d) ranges)).any (fun cr => cr.size == 0) = true
      · rw [if_pos hs, if_pos hs]
        rfl
      · rw [if_neg hs, if_neg hs, indicesAllB_eq hf']
        by_cases hz : ∃ r ∈ kept (b ||| d) ranges, ∃ x ∈ r, twiceZero x
        · rw [if_pos hz, if_pos hz]
          cases m <;> rfl
        · rw [if_neg hz, if_neg hz]
          rfl

/-- A call that is refused is refused before any of this. -/
theorem C87_refused (m : Profile) {e : SimulatorError} (hv : validate ranges.length b d = some e) :
    startB m ranges b d = .ok (.error e) := by
  unfold startB
  simp only [hv]

/-- Ranges of hands of two different cards: both builds do what `prepareExact` says, without panic and without leaving a table. -/
theorem C87_well_formed (m : Profile) (hwf : ∀ r ∈ ranges, WfRange r) : startB m ranges b d = .ok (prepareExact ranges b d) := by
  cases hv : validate ranges.length b d with
  | some e => rw [C87_refused m hv]; unfold prepareExact; rw [hv]
  | none =>
    have hk : kept (b ||| d) ranges = ranges.map fun h => removeConflictingCombos h b d := by
      unfold kept
      apply List.map_congr_left
      intro r hr
      unfold removeConflictingCombos
      apply List.filter_congr
      intro x hx
      have := hwf r hr x hx
      rw [Bool.eq_iff_iff, decide_eq_true_eq, beq_iff_eq, two_bits]
      unfold clash
      rw [Nat.mod_eq_of_lt (by omega), Nat.mod_eq_of_lt (by omega)]
    have hin : ∀ r ∈ kept (b ||| d) ranges, ∀ x ∈ r, x.c1 < 52 ∧ x.c2 < 52 ∧ x.c1 ≠ x.c2 := by
      intro r hr x hx
      unfold kept at hr
      rw [List.mem_map] at hr
      obtain ⟨q, hq, rfl⟩ := hr
      have := hwf q hq x (List.mem_of_mem_filter hx)
      omega
    rw [C87_start m hv, if_neg, if_neg, hk]
    · unfold prepareExact
      simp only [hv]
      by_cases hs : (CombinedRange.fromRanges (ranges.map fun h => removeConflictingCombos h b d)).any (fun cr => cr.size == 0) = true
      · rw [if_pos hs, if_pos hs]
      · rw [if_neg hs, if_neg hs, if_neg]
        rintro ⟨r, hr, x, hx, hz⟩
        have := hin r (by rw [hk]; exact hr) x hx
        unfold twiceZero at hz
        omega
    · rintro ⟨r, hr, x, hx, hz⟩
      have := hin r hr x hx
      unfold foreign at hz
      omega
    · rintro ⟨_, r, hr, x, hx, hz⟩
      have := hwf r hr x hx
      unfold wide at hz
      omega

/-- Undefined behaviour at the start: in a release build only, and exactly when a hand of twice the card 0 takes part. -/
theorem C87_undefined (m : Profile) : startB m ranges b d = .undefined →
    m = .release ∧ validate ranges.length b d = none ∧ ∃ r ∈ ranges, ∃ x ∈ r, x.c1 = 0 ∧ x.c2 = 0 := by
  intro h
  cases hv : validate ranges.length b d with
  | some e => rw [C87_refused m hv] at h; exact absurd h (by simp)
  | none =>
    rw [C87_start m hv] at h
    split at h
    · exact absurd h (by simp)
    · split at h
      · exact absurd h (by simp)
      · split at h
        · exact absurd h (by simp)
        · split at h
          · rename_i hz
            cases m with
            | debug => exact absurd h (by simp [failB])
            | release =>
              refine ⟨rfl, rfl, ?_⟩
              obtain ⟨r, hr, x, hx, hz⟩ := hz
              unfold kept at hr
              rw [List.mem_map] at hr
              obtain ⟨q, hq, rfl⟩ := hr
              exact ⟨q, hq, x, List.mem_of_mem_filter hx, hz⟩
          · exact absurd h (by simp)

end

/-- Twice the deuce of the first suit against two aces. -/
theorem C87_twice_zero (m : Profile) : startB m [[⟨0, 0, 100⟩], [⟨50, 51, 100⟩]] 0 0 = failB m := by
  rw [C87_start m (by decide +kernel), if_neg (by rintro ⟨_, h⟩; revert h; decide), if_neg (by decide +kernel),
    if_neg (by decide +kernel), if_pos (by decide +kernel)]

/-- A hand with the number 52, which is no card. -/
theorem C87_no_card (m : Profile) : startB m [[⟨52, 1, 100⟩], [⟨50, 51, 100⟩]] 0 0 = .panic := by
  rw [C87_start m (by decide +kernel)]
  split
  · rfl
  · rw [if_pos (by decide +kernel)]

/-- A hand with the number 64: a debug build panics.  A release build takes it for card 0 and drops the hand silently when that card
is on the board. -/
theorem C87_wrapped_card :
    startB .debug [[⟨64, 1, 100⟩, ⟨2, 3, 100⟩], [⟨50, 51, 100⟩]] 0 1 = .panic ∧
    ∃ s, startB .release [[⟨64, 1, 100⟩, ⟨2, 3, 100⟩], [⟨50, 51, 100⟩]] 0 1 = .ok (.ok s) ∧
      s.handRanges = [[⟨2, 3, 100⟩], [⟨50, 51, 100⟩]] := by
  constructor
  · rw [C87_start _ (by decide +kernel), if_pos ⟨rfl, by decide⟩]
  · rw [C87_start _ (by decide +kernel), if_neg (by rintro ⟨h, _⟩; exact absurd h (by decide)), if_neg (by decide +kernel),
      if_neg (by decide +kernel), if_neg (by decide +kernel)]
    exact ⟨_, rfl, by decide +kernel⟩

/-- Twice the ace of the first suit is accepted in both builds, and credited to the hand of the cards 47 and 51; with the other three
aces and two kings on the board its score is read outside `PERF_HASH_OFFSETS`. -/
theorem C87_twice_ace (m : Profile) :
    (∃ s, startB m [[⟨48, 48, 100⟩], [⟨0, 1, 100⟩]] 0 0 = .ok (.ok s)) ∧
    getCardIndexB m 48 48 = .ok (getCardIndex 47 51) ∧
    (ofCards [49, 50, 51, 44, 45] + Hand.fromHoleCards 48 48).evaluateB = .undefined ∧
    (ofCards [49, 50, 51, 44, 45] + Hand.fromHoleCards 48 48).evaluateWithoutFlushB = .undefined := by
  refine ⟨?_, C86_equal_cards (by decide) (by decide) m, by decide +kernel, by decide +kernel⟩
  rw [C87_start m (by decide +kernel), if_neg (by rintro ⟨_, h⟩; revert h; decide), if_neg (by decide +kernel),
    if_neg (by decide +kernel), if_neg (by decide +kernel)]
  exact ⟨_, rfl⟩

/-! ## Texts of numbers that are no cards -/

/-- `card_to_string` panics exactly for the numbers that are no card. -/
theorem C87_card_to_string (c : Nat) : (cardToString c = none ↔ 52 ≤ c) := by
  constructor
  · intro h
    by_contra hc
    rw [cardToString_eq (by omega)] at h
    exact absurd h (by simp)
  · intro h
    unfold cardToString
    have : RANK_TO_CHAR[c >>> 2]? = none := by
      rw [List.getElem?_eq_none]
      rw [Nat.shiftRight_eq_div_pow]
      show 13 ≤ _
      omega
    rw [this]
    rfl

/-- So does `Display` of a hand, for either number. -/
theorem C87_display (x : Combo) : (x.display = none ↔ foreign x) := by
  have hr : ∀ c, RANK_TO_CHAR[c >>> 2]? = none ↔ 52 ≤ c := by
    intro c
    rw [List.getElem?_eq_none_iff, Nat.shiftRight_eq_div_pow]
    show 13 ≤ _ ↔ _
    omega
  have hs : ∀ c, ∃ t, SUIT_TO_CHAR[c &&& 3]? = some t := by
    intro c
    have : c &&& 3 < SUIT_TO_CHAR.length := lt_of_le_of_lt Nat.and_le_right (by decide)
    exact ⟨_, List.getElem?_eq_getElem this⟩
  unfold Combo.display foreign
  obtain ⟨t1, h1⟩ := hs x.c1
  obtain ⟨t2, h2⟩ := hs x.c2
  rw [h1, h2, ← hr x.c1, ← hr x.c2]
  cases RANK_TO_CHAR[x.c1 >>> 2]? with
  | none => simp
  | some y =>
    cases RANK_TO_CHAR[x.c2 >>> 2]? with
    | none => simp
    | some z => simp

theorem maskCards_two (a b : Nat) : maskCards ((1 <<< a) ||| (1 <<< b)) = (List.range 52).filter (fun i => i = a ∨ i = b) := by
  unfold maskCards
  apply List.filter_congr
  intro i _
  rw [Nat.testBit_or, Nat.one_shiftLeft, Nat.one_shiftLeft, Nat.testBit_two_pow, Nat.testBit_two_pow, Bool.eq_iff_iff]
  simp only [Bool.or_eq_true, decide_eq_true_eq]
  omega

/-- `hole_to_string` for any two numbers: from 64 on a debug build panics and a release build takes them modulo 64; the result names the
cards among the two numbers, so it is shorter for twice the same card and for the numbers from 52 to 63. -/
theorem C87_hole_to_string (a b : Nat) :
    holeToStringB .debug (a, b) =
      (if 64 ≤ a ∨ 64 ≤ b then .panic else .ok (((List.range 52).filter (fun i => i = a ∨ i = b)).flatMap cardName)) ∧
    holeToStringB .release (a, b) = .ok (((List.range 52).filter (fun i => i = a % 64 ∨ i = b % 64)).flatMap cardName) := by
  unfold holeToStringB
  constructor
  · by_cases h1 : 64 ≤ a
    · rw [if_pos (Or.inl h1), shiftB_debug (by omega)]; rfl
    · rw [shiftB_ok (by omega), Ran.bind_ok]
      by_cases h2 : 64 ≤ b
      · rw [if_pos (Or.inr h2), shiftB_debug (by omega)]; rfl
      · rw [if_neg (by omega), shiftB_ok (by omega), Ran.bind_ok, maskToString_eq, maskCards_two]; rfl
  · rw [shiftB_release, Ran.bind_ok, shiftB_release, Ran.bind_ok, maskToString_eq, maskCards_two]; rfl

/-- A list of hole cards: a debug build panics exactly if one of the numbers is 64 or more; for cards both builds give their names. -/
theorem C87_holes_to_strings (holes : List (Nat × Nat)) :
    (holesToStringsB .debug holes = .panic ↔ ∃ x ∈ holes, 64 ≤ x.1 ∨ 64 ≤ x.2) ∧
    (∀ m, (∀ x ∈ holes, x.1 < 64 ∧ x.2 < 64) → holesToStringsB m holes = .ok (holesToStrings holes)) := by
  constructor
  · induction holes with
    | nil => simp [holesToStringsB]
    | cons x xs ih =>
      unfold holesToStringsB
      rw [(C87_hole_to_string x.1 x.2).1]
      by_cases hx : 64 ≤ x.1 ∨ 64 ≤ x.2
      · rw [if_pos hx]
        exact ⟨fun _ => ⟨x, List.mem_cons_self, hx⟩, fun _ => rfl⟩
      · rw [if_neg hx, Ran.bind_ok]
        have : (∃ y ∈ x :: xs, 64 ≤ y.1 ∨ 64 ≤ y.2) ↔ ∃ y ∈ xs, 64 ≤ y.1 ∨ 64 ≤ y.2 := by
          constructor
          · rintro ⟨y, hy, hz⟩
            rcases List.mem_cons.1 hy with rfl | hy
            · exact absurd hz hx
            · exact ⟨y, hy, hz⟩
          · rintro ⟨y, hy, hz⟩
            exact ⟨y, List.mem_cons_of_mem _ hy, hz⟩
        rw [this, ← ih]
        cases holesToStringsB .debug xs <;> simp
  · intro m h
    induction holes with
    | nil => rfl
    | cons x xs ih =>
      have hx := h x List.mem_cons_self
      unfold holesToStringsB holeToStringB
      rw [shiftB_ok hx.1, Ran.bind_ok, shiftB_ok hx.2, Ran.bind_ok, Ran.pure_eq, Ran.bind_ok,
        ih (fun y hy => h y (List.mem_cons_of_mem _ hy))]
      rfl

example : holeToStringB .debug (51, 52) = .ok "Ad".toList ∧ holeToStringB .debug (5, 5) = .ok "3h".toList ∧
    holeToStringB .debug (64, 1) = .panic ∧ holeToStringB .release (64, 1) = .ok "2s2h".toList ∧
    (⟨52, 0, 100⟩ : Combo).display = none := by decide +kernel

/-! ## The sections of the results -/

/-- The indices of the hands: pairs first, then the suited hands up to 389, then the offsuit hands from 390 on.  (The documentation of
`hand_results`, src/equity_calculator/simulator.rs:268-271, says 391 and 392: the first two offsuit hands are not suited.) -/
theorem C87_sections {a b : Nat} (ha : a < 52) (hb : b < 52) (hab : a ≠ b) :
    (getCardIndex a b < 78 ↔ Spec.rank a = Spec.rank b) ∧
    (78 ≤ getCardIndex a b ∧ getCardIndex a b < 390 ↔ Spec.suit a = Spec.suit b) ∧
    (390 ≤ getCardIndex a b ↔ Spec.rank a ≠ Spec.rank b ∧ Spec.suit a ≠ Spec.suit b) := by
  have k1 : ∀ a < 52, ∀ b < 52, a ≠ b → (getCardIndex a b < 78 ↔ a / 4 = b / 4) := by decide +kernel
  have k2 : ∀ a < 52, ∀ b < 52, a ≠ b → (getCardIndex a b < 390 ↔ a / 4 = b / 4 ∨ a % 4 = b % 4) := by decide +kernel
  have h1 := k1 a ha b hb hab
  have h2 := k2 a ha b hb hab
  unfold Spec.rank Spec.suit
  omega

/-- The hand with the index 391 is an ace and a king of different suits. -/
example : getCardIndex 48 46 = 391 ∧ Spec.suit 48 ≠ Spec.suit 46 := by decide +kernel

end Pokers
