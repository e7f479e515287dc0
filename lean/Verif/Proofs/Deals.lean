import Verif.Proofs.Combine
/-!
The deals of uncombined ranges are the legal choices of the specification.
-/
namespace Pokers
open CombinedRange Sim Spec

/-- The hole cards of a combo of a range. -/
def toHole (c : Combo) : Hole := (c.c1, c.c2, c.w)

/-- A range whose hands consist of two different cards of the deck, as all ranges made by the parser (`C18_wellformed`). -/
def WfRange (r : List Combo) : Prop := ∀ c ∈ r, c.c1 < 52 ∧ c.c2 < 52 ∧ c.c1 ≠ c.c2

/-- The card mask of a hand. -/
def bitsOf (h : Hole) : Nat := (1 <<< h.1) ||| (1 <<< h.2.1)

/-- The hands of `d` use no card twice and none of `u`, in terms of masks. -/
def maskOk : Nat → List Hole → Bool
  | _, [] => true
  | u, h :: t => u &&& bitsOf h == 0 && maskOk (u ||| bitsOf h) t

/-- Union of the masks. -/
def maskOr (u : Nat) (d : List Hole) : Nat := d.foldl (fun u h => u ||| bitsOf h) u

/-- Hands for the players from `k` on. -/
def assign (k : Nat) (d : List Hole) (ph : Nat → Hole) : Nat → Hole :=
  match d with
  | [] => ph
  | h :: t => assign (k + 1) t (Function.update ph k h)

/-- The uncombined ranges of the players from `k` on. -/
def singles : Nat → List (List Combo) → List CombinedRange
  | _, [] => []
  | k, r :: rs => fromRange r k :: singles (k + 1) rs

theorem mapIdx_singles (f : Nat → List Combo → CombinedRange) : ∀ (ranges : List (List Combo)) (k : Nat),
    (∀ i r, f i r = fromRange r (k + i)) → ranges.mapIdx f = singles k ranges := by
  intro ranges
  induction ranges generalizing f with
  | nil => intro k _; rfl
  | cons r rs ih =>
    intro k h
    rw [List.mapIdx_cons, singles, h 0 r, ih (fun i => f (i + 1)) (k + 1)]
    · rfl
    · intro i r
      rw [h]; congr 1; omega

theorem fromRanges_eq (ranges : List (List Combo)) : fromRanges ranges = combineLoop ranges.length (singles 0 ranges) := by
  rw [fromRanges, mapIdx_singles _ ranges 0 (fun i r => by rw [Nat.zero_add])]

theorem playersOf_fromRange (r : List Combo) (k : Nat) : playersOf (fromRange r k) = [k] := by
  simp [playersOf, fromRange]

theorem singles_players : ∀ (ranges : List (List Combo)) (k : Nat),
    (singles k ranges).flatMap playersOf = List.range' k ranges.length := by
  intro ranges
  induction ranges with
  | nil => intro k; rfl
  | cons r rs ih =>
    intro k
    rw [singles, List.flatMap_cons, playersOf_fromRange, ih]
    simp [List.range'_succ]

theorem writeHands_fromRange (r : List Combo) (k : Nat) (c : Combo) (ph : Nat → Hole) :
    writeHands (fromRange r k) (comboOf c) ph = Function.update ph k (toHole c) := by
  simp [writeHands, fromRange, comboOf, toHole, List.range_succ]

theorem filter_map_cons (u : Nat) (h : Hole) (l : List (List Hole)) :
    (l.map (h :: ·)).filter (maskOk u) =
      if u &&& bitsOf h = 0 then (l.filter (maskOk (u ||| bitsOf h))).map (h :: ·) else [] := by
  rw [List.filter_map]
  by_cases hh : u &&& bitsOf h = 0
  · rw [if_pos hh]
    congr 1
    apply List.filter_congr
    intro d _
    simp [Function.comp, maskOk, hh]
  · rw [if_neg hh]
    have : List.filter (maskOk u ∘ fun x => h :: x) l = [] := by
      apply List.filter_eq_nil_iff.2
      intro d _
      simp [Function.comp, maskOk, hh]
    rw [this]; rfl

theorem dealsOf_singles : ∀ (ranges : List (List Combo)) (k u : Nat) (ph : Nat → Hole),
    dealsOf (singles k ranges) u ph =
      ((((choices (ranges.map (·.map toHole))).filter (maskOk u)).map fun d => (maskOr u d, assign k d ph) :
        List (Nat × (Nat → Hole))) : Multiset (Nat × (Nat → Hole))) := by
  intro ranges
  induction ranges with
  | nil => intro k u ph; rfl
  | cons r rs ih =>
    intro k u ph
    rw [singles, dealsOf, List.map_cons, choices, List.filter_flatMap, List.map_flatMap, List.flatMap_map, ← Multiset.coe_bind]
    show ((r.map comboOf : List JointCombo) : Multiset JointCombo).bind _ = _
    rw [← Multiset.map_coe, Multiset.bind_map]
    apply Multiset.bind_congr
    intro c _
    rw [filter_map_cons]
    show (if u &&& bitsOf (toHole c) ≠ 0 then _ else dealsOf (singles (k + 1) rs) (u ||| bitsOf (toHole c)) _) = _
    by_cases hc : u &&& bitsOf (toHole c) = 0
    · rw [if_neg (not_not.2 hc), if_pos hc, ih, writeHands_fromRange, List.map_map]
      rfl
    · rw [if_pos hc, if_neg hc]
      rfl

theorem bitsOf_testBit (h : Hole) (c : Nat) : (bitsOf h).testBit c = decide (c ∈ cardsOf h) := by
  rw [bitsOf, Nat.testBit_or, testBit_one_shl, testBit_one_shl]
  simp [cardsOf]

theorem maskOr_testBit : ∀ (d : List Hole) (u c : Nat), (maskOr u d).testBit c = (u.testBit c || decide (c ∈ dealt d)) := by
  intro d
  induction d with
  | nil => intro u c; simp [maskOr, dealt]
  | cons h t ih =>
    intro u c
    show (maskOr (u ||| bitsOf h) t).testBit c = _
    rw [ih, Nat.testBit_or, bitsOf_testBit, Bool.or_assoc]
    congr 1
    rw [Bool.eq_iff_iff, Bool.or_eq_true, decide_eq_true_iff, decide_eq_true_iff, decide_eq_true_iff]
    simp [dealt]

theorem and_bitsOf (u : Nat) (h : Hole) : u &&& bitsOf h = 0 ↔ ∀ c ∈ cardsOf h, u.testBit c = false := by
  rw [Nat.and_comm, and_eq_zero_iff]
  constructor
  · intro hh c hc; exact hh c (by rw [bitsOf_testBit]; simpa using hc)
  · intro hh c hc; rw [bitsOf_testBit] at hc; exact hh c (by simpa using hc)

theorem maskOk_iff : ∀ (d : List Hole) (u : Nat) (blocked : List Nat), (∀ c < 52, u.testBit c = true ↔ c ∈ blocked) →
    (∀ h ∈ d, h.1 < 52 ∧ h.2.1 < 52 ∧ h.1 ≠ h.2.1) → (maskOk u d = true ↔ Legal blocked d) := by
  intro d
  induction d with
  | nil => intro u b _ _; simp [maskOk, Legal, dealt]
  | cons h t ih =>
    intro u b hu hd
    obtain ⟨h1, h2, hne⟩ := hd h (by simp)
    rw [maskOk, Bool.and_eq_true, beq_iff_eq, and_bitsOf,
      ih (u ||| bitsOf h) (h.1 :: h.2.1 :: b) (by
        intro c hc
        rw [Nat.testBit_or, bitsOf_testBit, Bool.or_eq_true, hu c hc]
        simp [cardsOf]; tauto) (fun x hx => hd x (by simp [hx]))]
    have e : dealt (h :: t) = h.1 :: h.2.1 :: dealt t := rfl
    have hb : ∀ c < 52, u.testBit c = false ↔ c ∉ b := by
      intro c hc; rw [← hu c hc]; simp
    rw [Legal, Legal, e]
    simp only [hb _ h1, hb _ h2, cardsOf, List.mem_cons, List.not_mem_nil, or_false, forall_eq_or_imp, forall_eq, List.nodup_cons, not_or]
    constructor
    · rintro ⟨⟨h1, h2⟩, h3, h4⟩
      exact ⟨⟨⟨hne, fun hm => (h4 _ hm).1 rfl⟩, fun hm => (h4 _ hm).2.1 rfl, h3⟩, h1, h2, fun a ha => (h4 a ha).2.2⟩
    · rintro ⟨⟨⟨_, h1⟩, h2, h3⟩, h4, h5, h6⟩
      refine ⟨⟨h4, h5⟩, h3, fun a ha => ⟨?_, ?_, h6 a ha⟩⟩
      · rintro rfl; exact h1 ha
      · rintro rfl; exact h2 ha

theorem assign_apply : ∀ (d : List Hole) (k : Nat) (ph : Nat → Hole) (i : Nat),
    assign k d ph i = if k ≤ i ∧ i < k + d.length then d.getD (i - k) (0, 0, 0) else ph i := by
  intro d
  induction d with
  | nil => intro k ph i; rw [assign, if_neg (by simp)]
  | cons h t ih =>
    intro k ph i
    rw [assign, ih, Function.update_apply]
    by_cases h0 : i = k
    · subst h0
      rw [if_neg (by omega), if_pos rfl, if_pos (by simp)]
      simp
    · rw [if_neg h0]
      by_cases h1 : k ≤ i ∧ i < k + (h :: t).length
      · have h2 : k + 1 ≤ i ∧ i < k + 1 + t.length := by simp at h1; omega
        rw [if_pos h1, if_pos h2]
        have : i - k = (i - (k + 1)) + 1 := by omega
        rw [this, List.getD_cons_succ]
      · rw [if_neg h1, if_neg (by simp at h1 ⊢; omega)]

theorem assign_map (d : List Hole) (ph : Nat → Hole) : (List.range d.length).map (assign 0 d ph) = d := by
  apply List.ext_getElem
  · simp
  · intro i h1 h2
    rw [List.getElem_map, List.getElem_range, assign_apply, if_pos (by omega), Nat.sub_zero, List.getD_eq_getElem _ _ h2]

theorem mem_choices {α : Type} : ∀ (rs : List (List α)) (d : List α), d ∈ choices rs ↔
    d.length = rs.length ∧ ∀ i (h : i < d.length) (h' : i < rs.length), d[i] ∈ rs[i] := by
  intro rs
  induction rs with
  | nil => intro d; simp only [choices, List.mem_singleton, List.length_nil, List.length_eq_zero_iff]; constructor
           · rintro rfl; simp
           · exact fun h => h.1
  | cons r rs ih =>
    intro d
    simp only [choices, List.mem_flatMap, List.mem_map, ih]
    constructor
    · rintro ⟨h, hh, t, ⟨ht, hm⟩, rfl⟩
      refine ⟨by simp [ht], fun i h1 h2 => ?_⟩
      cases i with
      | zero => exact hh
      | succ i => exact hm i (by simpa using h1) (by simpa using h2)
    · intro ⟨h1, h2⟩
      cases d with
      | nil => simp at h1
      | cons h t =>
        refine ⟨h, h2 0 (by simp) (by simp), t, ⟨by simpa using h1, fun i hi hi' => ?_⟩, rfl⟩
        exact h2 (i + 1) (by simpa using hi) (by simpa using hi')

theorem length_of_mem_choices {α : Type} {rs : List (List α)} {d : List α} (h : d ∈ choices rs) : d.length = rs.length :=
  ((mem_choices rs d).1 h).1

/-- The legal deals of the ranges with the mask `u` of blocked cards, as lists of hands. -/
theorem filter_maskOk (ranges : List (List Combo)) (hwf : ∀ r ∈ ranges, WfRange r) (u : Nat) (blocked : List Nat)
    (hu : ∀ c < 52, u.testBit c = true ↔ c ∈ blocked) :
    (choices (ranges.map (·.map toHole))).filter (maskOk u) = deals (ranges.map (·.map toHole)) blocked := by
  apply List.filter_congr
  intro d hd
  rw [Bool.eq_iff_iff, maskOk_iff d u blocked hu ?_]
  · simp
  · intro h hh
    obtain ⟨i, hi, rfl⟩ := List.getElem_of_mem hh
    have h1 := (mem_choices _ _).1 hd
    have h2 := h1.2 i hi (by omega)
    rw [List.getElem_map] at h2
    obtain ⟨c, hc, he⟩ := List.mem_map.1 h2
    rw [← he]
    exact hwf _ (List.getElem_mem _) c hc

/-- C27: the deals of the combined ranges. -/
theorem fromRanges_deals (ranges : List (List Combo)) (hwf : ∀ r ∈ ranges, WfRange r) (u : Nat) (blocked : List Nat)
    (hu : ∀ c < 52, u.testBit c = true ↔ c ∈ blocked) (ph : Nat → Hole) :
    dealsOf (fromRanges ranges) u ph =
      (((deals (ranges.map (·.map toHole)) blocked).map fun d => (maskOr u d, assign 0 d ph) : List (Nat × (Nat → Hole))) :
        Multiset (Nat × (Nat → Hole))) := by
  rw [fromRanges_eq, (combineLoop_deals _ _ ranges.length _).2, dealsOf_singles, filter_maskOk ranges hwf u blocked hu]
  rw [singles_players, List.range_eq_range']

theorem fromRanges_players (ranges : List (List Combo)) :
    ((fromRanges ranges).flatMap playersOf).Perm (List.range ranges.length) := by
  rw [fromRanges_eq]
  exact (combineLoop_deals _ _ ranges.length (by rw [singles_players, List.range_eq_range'])).1

end Pokers
