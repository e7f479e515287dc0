import Verif.Proofs.Describe
/-!
# The tables by category and by draw
-/
namespace Pokers

/-- The sums over a list of hands. -/
def sumHands (us : List UnitResults) : BigUnitResults :=
  { wins := (us.map (·.wins)).sum, ties := (us.map (·.ties)).sum, total := (us.map (·.total)).sum,
    correctedTies := (us.map (·.correctedTies)).sum, weight := (us.map (·.weight)).sum }

theorem foldl_addHand (us : List UnitResults) (b : BigUnitResults) : us.foldl BigUnitResults.addHand b =
    { wins := b.wins + (sumHands us).wins, ties := b.ties + (sumHands us).ties, total := b.total + (sumHands us).total,
      correctedTies := b.correctedTies + (sumHands us).correctedTies, weight := b.weight + (sumHands us).weight } := by
  induction us generalizing b with
  | nil => simp [sumHands]
  | cons u us ih =>
    rw [List.foldl_cons, ih]
    simp [sumHands, BigUnitResults.addHand, add_assoc]

theorem foldl_addHand_empty (us : List UnitResults) : us.foldl BigUnitResults.addHand {} = sumHands us := by
  rw [foldl_addHand]; simp

/-- Whether the draw flags `d` put a hand in column `c` of the draw table: the seven flags, then the three kinds of nut flush
(draws). -/
def InColumn (c d : Nat) : Prop := (c < 7 ∧ d &&& (1 <<< c) ≠ 0) ∨ nutIndex d = some c

instance (c d : Nat) : Decidable (InColumn c d) := inferInstanceAs (Decidable (_ ∨ _))

theorem nutIndex_range {d c : Nat} (h : nutIndex d = some c) : 7 ≤ c ∧ c ≤ 9 := by
  unfold nutIndex at h
  simp only at h
  split_ifs at h <;> simp at h <;> omega

theorem inColumn_lt {c d : Nat} (h : InColumn c d) : c < 10 := by
  rcases h with ⟨h, _⟩ | h
  · omega
  · have := nutIndex_range h; omega

theorem flags_fold (i d : Nat) (u : UnitResults) (t : Nat → BigUnitResults) (m : Nat) (k : Nat) :
    ((List.range m).foldl (fun t k => if d &&& (1 <<< k) ≠ 0 then Function.update t (i * 10 + k) ((t (i * 10 + k)).addHand u) else t) t) k =
      if ∃ c < m, d &&& (1 <<< c) ≠ 0 ∧ k = i * 10 + c then (t k).addHand u else t k := by
  induction m with
  | zero => simp
  | succ m ih =>
    rw [List.range_succ, List.foldl_append, List.foldl_cons, List.foldl_nil]
    by_cases hd : d &&& (1 <<< m) ≠ 0
    · rw [if_pos hd]
      by_cases hk : k = i * 10 + m
      · subst hk
        rw [Function.update_self, ih, if_neg, if_pos ⟨m, by omega, hd, rfl⟩]
        rintro ⟨c, hc, _, he⟩
        omega
      · rw [Function.update_of_ne hk, ih]
        apply if_congr _ rfl rfl
        constructor
        · rintro ⟨c, hc, h⟩; exact ⟨c, by omega, h⟩
        · rintro ⟨c, hc, h1, h2⟩
          refine ⟨c, ?_, h1, h2⟩
          rcases Nat.lt_succ_iff_lt_or_eq.1 hc with h | h
          · exact h
          · subst h; exact absurd h2 hk
    · rw [if_neg hd, ih]
      apply if_congr _ rfl rfl
      constructor
      · rintro ⟨c, hc, h⟩; exact ⟨c, by omega, h⟩
      · rintro ⟨c, hc, h1, h2⟩
        refine ⟨c, ?_, h1, h2⟩
        rcases Nat.lt_succ_iff_lt_or_eq.1 hc with h | h
        · exact h
        · subst h; exact absurd h1 hd

theorem boardHand_apply (i : Nat) (u : UnitResults) (t : (Nat → BigUnitResults) × (Nat → BigUnitResults)) :
    (∀ k, (boardHand i u t).1 k = if u.valid = true ∧ k = i * 9 + u.rank then (t.1 k).addHand u else t.1 k) ∧
    ∀ k, (boardHand i u t).2 k = if u.valid = true ∧ i * 10 ≤ k ∧ InColumn (k - i * 10) u.draw then (t.2 k).addHand u else t.2 k := by
  unfold boardHand
  by_cases hv : u.valid = true
  · rw [if_pos hv]
    simp only
    refine ⟨fun k => ?_, fun k => ?_⟩
    · by_cases hk : k = i * 9 + u.rank
      · subst hk; rw [Function.update_self, if_pos ⟨hv, rfl⟩]
      · rw [Function.update_of_ne hk, if_neg (fun h => hk h.2)]
    · have hf := flags_fold i u.draw u t.2 7
      cases hn : nutIndex u.draw with
      | none =>
        simp only
        rw [hf]
        apply if_congr _ rfl rfl
        constructor
        · rintro ⟨c, hc, h1, h2⟩; exact ⟨hv, by omega, .inl (by rw [h2, Nat.add_sub_cancel_left]; exact ⟨hc, h1⟩)⟩
        · rintro ⟨_, h2, (⟨hc, h1⟩ | h)⟩
          · exact ⟨k - i * 10, hc, h1, by omega⟩
          · rw [hn] at h; cases h
      | some m =>
        simp only
        have hm := nutIndex_range hn
        by_cases hk : k = i * 10 + m
        · subst hk
          rw [Function.update_self, hf, if_neg, if_pos ⟨hv, by omega, .inr (by rw [Nat.add_sub_cancel_left]; exact hn)⟩]
          rintro ⟨c, hc, _, h2⟩
          omega
        · rw [Function.update_of_ne hk, hf]
          apply if_congr _ rfl rfl
          constructor
          · rintro ⟨c, hc, h1, h2⟩; exact ⟨hv, by omega, .inl (by rw [h2, Nat.add_sub_cancel_left]; exact ⟨hc, h1⟩)⟩
          · rintro ⟨_, h2, (⟨hc, h1⟩ | h)⟩
            · exact ⟨k - i * 10, hc, h1, by omega⟩
            · rw [hn] at h
              have := Option.some.inj h
              exact absurd (by omega) hk
  · rw [if_neg hv]
    exact ⟨fun k => by rw [if_neg (fun h => hv h.1)], fun k => by rw [if_neg (fun h => hv h.1)]⟩

/-- One row of hands. -/
theorem boardRow (i : Nat) (us : List UnitResults) (t : (Nat → BigUnitResults) × (Nat → BigUnitResults)) :
    (∀ k, (us.foldl (fun t u => boardHand i u t) t).1 k =
      (us.filter fun u => decide (u.valid = true ∧ k = i * 9 + u.rank)).foldl BigUnitResults.addHand (t.1 k)) ∧
    ∀ c, (us.foldl (fun t u => boardHand i u t) t).2 (i * 10 + c) =
      (us.filter fun u => decide (u.valid = true ∧ InColumn c u.draw)).foldl BigUnitResults.addHand (t.2 (i * 10 + c)) := by
  induction us generalizing t with
  | nil => exact ⟨fun _ => rfl, fun _ => rfl⟩
  | cons u us ih =>
    obtain ⟨h1, h2⟩ := ih (boardHand i u t)
    obtain ⟨g1, g2⟩ := boardHand_apply i u t
    refine ⟨fun k => ?_, fun c => ?_⟩
    · rw [List.foldl_cons, h1, g1, List.filter_cons]
      by_cases h : u.valid = true ∧ k = i * 9 + u.rank
      · rw [if_pos h, if_pos (decide_eq_true h), List.foldl_cons]
      · rw [if_neg h, if_neg (by simpa using h)]
    · rw [List.foldl_cons, h2, g2, List.filter_cons]
      by_cases h : u.valid = true ∧ InColumn c u.draw
      · rw [if_pos ⟨h.1, by omega, by rw [Nat.add_sub_cancel_left]; exact h.2⟩, if_pos (decide_eq_true h), List.foldl_cons]
      · rw [if_neg (fun hh => h ⟨hh.1, by have := hh.2.2; rwa [Nat.add_sub_cancel_left] at this⟩), if_neg (by simpa using h)]

theorem boardRow_other (i : Nat) (us : List UnitResults) (t : (Nat → BigUnitResults) × (Nat → BigUnitResults)) (k : Nat)
    (hk : ∀ c < 10, k ≠ i * 10 + c) : (us.foldl (fun t u => boardHand i u t) t).2 k = t.2 k := by
  induction us generalizing t with
  | nil => rfl
  | cons u us ih =>
    rw [List.foldl_cons, ih, (boardHand_apply i u t).2 k, if_neg]
    rintro ⟨_, h1, h2⟩
    exact hk _ (inColumn_lt h2) (by omega)

/-- The hands of player `i`. -/
def row (i : Nat) (hr : Nat → UnitResults) : List UnitResults := (List.range NUM_HANDS).map fun j => hr (i * NUM_HANDS + j)

theorem foldl_row (i : Nat) (hr : Nat → UnitResults) (t : (Nat → BigUnitResults) × (Nat → BigUnitResults)) :
    (List.range NUM_HANDS).foldl (fun t j => boardHand i (hr (i * NUM_HANDS + j)) t) t = (row i hr).foldl (fun t u => boardHand i u t) t := by
  unfold row
  rw [List.foldl_map]

/-- The tables: every cell is the sum over the player's hands that belong to it. -/
theorem boardTables_eq (n : Nat) (hr : Nat → UnitResults) (hrank : ∀ i < n, ∀ u ∈ row i hr, u.valid = true → u.rank < 9) :
    ∀ i < n, (∀ c < 9, (boardTables n hr).1 (i * 9 + c) = sumHands ((row i hr).filter fun u => decide (u.valid = true ∧ u.rank = c))) ∧
      ∀ c < 10, (boardTables n hr).2 (i * 10 + c) = sumHands ((row i hr).filter fun u => decide (u.valid = true ∧ InColumn c u.draw)) := by
  have key : ∀ m ≤ n, let t := (List.range m).foldl (fun t i => (List.range NUM_HANDS).foldl
        (fun t j => boardHand i (hr (i * NUM_HANDS + j)) t) t) ((fun _ => {}, fun _ => {}) : (Nat → BigUnitResults) × (Nat → BigUnitResults))
      (∀ k, m * 9 ≤ k → t.1 k = {}) ∧ (∀ k, m * 10 ≤ k → t.2 k = {}) ∧
      ∀ i < m, (∀ c < 9, t.1 (i * 9 + c) = sumHands ((row i hr).filter fun u => decide (u.valid = true ∧ u.rank = c))) ∧
        ∀ c < 10, t.2 (i * 10 + c) = sumHands ((row i hr).filter fun u => decide (u.valid = true ∧ InColumn c u.draw)) := by
    intro m
    induction m with
    | zero => intro _; exact ⟨fun _ _ => rfl, fun _ _ => rfl, fun i hi => absurd hi (by omega)⟩
    | succ m ih =>
      intro hm
      obtain ⟨i1, i2, i3⟩ := ih (by omega)
      simp only [List.range_succ, List.foldl_append, List.foldl_cons, List.foldl_nil]
      rw [foldl_row]
      generalize (List.range m).foldl (fun t i => (List.range NUM_HANDS).foldl
        (fun t j => boardHand i (hr (i * NUM_HANDS + j)) t) t) ((fun _ => {}, fun _ => {}) : (Nat → BigUnitResults) × (Nat → BigUnitResults)) = t at *
      obtain ⟨b1, b2⟩ := boardRow m (row m hr) t
      have hother1 : ∀ k, (k < m * 9 ∨ (m + 1) * 9 ≤ k) → ((row m hr).foldl (fun t u => boardHand m u t) t).1 k = t.1 k := by
        intro k hk
        rw [b1, List.filter_eq_nil_iff.2, List.foldl_nil]
        intro u hu hh
        obtain ⟨hv, he⟩ := of_decide_eq_true hh
        have := hrank m (by omega) u hu hv
        omega
      have hother2 : ∀ k, (k < m * 10 ∨ (m + 1) * 10 ≤ k) → ((row m hr).foldl (fun t u => boardHand m u t) t).2 k = t.2 k := by
        intro k hk
        exact boardRow_other m _ t k (fun c hc => by omega)
      refine ⟨fun k hk => ?_, fun k hk => ?_, fun i hi => ?_⟩
      · rw [hother1 k (.inr hk)]; exact i1 k (by omega)
      · rw [hother2 k (.inr hk)]; exact i2 k (by omega)
      · rcases Nat.lt_succ_iff_lt_or_eq.1 hi with h | h
        · obtain ⟨j1, j2⟩ := i3 i h
          refine ⟨fun c hc => ?_, fun c hc => ?_⟩
          · rw [hother1 _ (.inl (by omega))]; exact j1 c hc
          · rw [hother2 _ (.inl (by omega))]; exact j2 c hc
        · subst h
          refine ⟨fun c hc => ?_, fun c hc => ?_⟩
          · rw [b1, i1 _ (by omega), foldl_addHand_empty]
            refine congrArg sumHands (List.filter_congr fun u _ => ?_)
            apply decide_eq_decide.2
            constructor
            · rintro ⟨h1, h2⟩; exact ⟨h1, by omega⟩
            · rintro ⟨h1, h2⟩; exact ⟨h1, by omega⟩
          · have h0 := i2 (i * 10 + c) (by omega)
            have h1 := b2 c
            rw [h0] at h1
            exact h1.trans (foldl_addHand_empty _)
  intro i hi
  exact (key n le_rfl).2.2 i hi

end Pokers
