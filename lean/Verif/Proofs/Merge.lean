import Verif.Proofs.Scan
import Verif.Proofs.Bits
import Mathlib.Algebra.BigOperators.Group.Finset.Basic
import Mathlib.Algebra.BigOperators.Intervals
/-!
# `update_results` adds the counters of a thread to the results
-/
namespace Pokers
open Finset (range)

theorem and_shl_ne_zero (i j : Nat) : i &&& (1 <<< j) ≠ 0 ↔ i.testBit j = true := by
  rw [Ne, and_eq_zero_iff]
  constructor
  · intro h
    by_contra hc
    apply h
    intro k hk
    rw [testBit_one_shl, decide_eq_false_iff_not]
    rintro rfl
    exact hc hk
  · intro h hc
    have := hc j h
    rw [testBit_one_shl, decide_eq_false_iff_not] at this
    exact this rfl

/-- The batch numbers the players in order. -/
def IdPlayers (n : Nat) (b : Batch) : Prop := ∀ j < n, b.playerIds j = j

theorem batchInit_ids (n : Nat) : IdPlayers n (Batch.init n) := by
  intro j hj
  have : ∀ m, (List.range m).foldl (fun ids i => Function.update ids i i) (fun _ => 0) j = if j < m then j else 0 := by
    intro m
    induction m with
    | zero => rfl
    | succ m ih =>
      rw [List.range_succ, List.foldl_append, List.foldl_cons, List.foldl_nil]
      by_cases h : j = m
      · subst h; rw [Function.update_self, if_pos (by omega)]
      · rw [Function.update_of_ne h, ih]
        by_cases h2 : j < m
        · rw [if_pos h2, if_pos (by omega)]
        · rw [if_neg h2, if_neg (by omega)]
  exact (this n).trans (if_pos hj)

/-- What one mask adds to the tie share of a player: an integer quotient. -/
def tieShare (b : Batch) (i : Nat) : ℚ := ((b.winsByMask i / countOnes i : Nat) : ℚ)

theorem mergePlayers_eq (N : Nat) (b : Batch) (hb : IdPlayers N b) (i : Nat) (m : Merge) : ∀ n, n ≤ N →
    (mergePlayers n b i m).2 = i % 2 ^ n ∧
    (mergePlayers n b i m).1.wins = (fun p => m.wins p + if p < n ∧ i.testBit p = true ∧ countOnes i = 1 then b.winsByMask i else 0) ∧
    (mergePlayers n b i m).1.ties = (fun p => m.ties p + if p < n ∧ i.testBit p = true ∧ countOnes i ≠ 1 then tieShare b i else 0) ∧
    (mergePlayers n b i m).1.winsByMask = m.winsByMask ∧ (mergePlayers n b i m).1.batchHands = m.batchHands ∧
    (mergePlayers n b i m).1.batchEquity = m.batchEquity +
      (if 0 < n ∧ i.testBit 0 = true then (if countOnes i = 1 then (b.winsByMask i : ℚ) else tieShare b i) else 0) := by
  intro n
  induction n with
  | zero =>
    intro _
    refine ⟨by rw [Nat.pow_zero, Nat.mod_one]; rfl, ?_, ?_, rfl, rfl, ?_⟩
    · funext p; rw [if_neg (by omega), add_zero]; rfl
    · funext p; rw [if_neg (fun h => by omega), add_zero]; rfl
    · rw [if_neg (fun h => by omega), add_zero]; rfl
  | succ n ih =>
    intro hn
    obtain ⟨h1, h2, h3, h4, h5, h6⟩ := ih (by omega)
    have hid := hb n (by omega)
    have hstep : mergePlayers (n + 1) b i m = (fun (x : Merge × Nat) =>
        if i &&& (1 <<< n) ≠ 0 then
          (if countOnes i = 1 then
            { x.1 with
              wins := Function.update x.1.wins n (x.1.wins n + b.winsByMask i),
              batchEquity := if n = 0 then x.1.batchEquity + (b.winsByMask i : ℚ) else x.1.batchEquity }
          else
            { x.1 with
              ties := Function.update x.1.ties n (x.1.ties n + tieShare b i),
              batchEquity := if n = 0 then x.1.batchEquity + tieShare b i else x.1.batchEquity },
           x.2 ||| (1 <<< n))
        else x) (mergePlayers n b i m) := by
      unfold mergePlayers
      rw [List.range_succ, List.foldl_append, List.foldl_cons, List.foldl_nil]
      simp only [hid]
      rfl
    rw [hstep]
    generalize mergePlayers n b i m = x at h1 h2 h3 h4 h5 h6
    simp only [and_shl_ne_zero]
    have hmod : i % 2 ^ (n + 1) = (i % 2 ^ n) + if i.testBit n = true then 2 ^ n else 0 := by
      rw [Nat.mod_pow_succ, Nat.testBit_eq_decide_div_mod_eq]
      rcases Nat.mod_two_eq_zero_or_one (i / 2 ^ n) with h | h <;> simp [h]
    by_cases hbit : i.testBit n = true
    · rw [if_pos hbit]
      rw [if_pos hbit] at hmod
      have hact : x.2 ||| (1 <<< n) = i % 2 ^ (n + 1) := by
        rw [h1, Nat.one_shiftLeft, hmod, or_shift _ _ (Nat.mod_lt _ (Nat.two_pow_pos n))]
      by_cases hc : countOnes i = 1
      · rw [if_pos hc]
        refine ⟨hact, ?_, ?_, h4, h5, ?_⟩
        · funext p
          show Function.update x.1.wins n (x.1.wins n + b.winsByMask i) p = _
          by_cases hp : p = n
          · subst hp
            rw [Function.update_self, h2]
            simp [hbit, hc]
          · rw [Function.update_of_ne hp, h2]
            have : p < n ↔ p < n + 1 := by omega
            simp only [this]
        · show x.1.ties = _
          rw [h3]; funext p; simp [hc]
        · show (if n = 0 then x.1.batchEquity + (b.winsByMask i : ℚ) else x.1.batchEquity) = _
          by_cases h0 : n = 0
          · subst h0
            rw [if_pos rfl, h6]; simp [hbit, hc]
          · rw [if_neg h0, h6]
            have : 0 < n ↔ 0 < n + 1 := by omega
            simp only [this]
      · rw [if_neg hc]
        refine ⟨hact, ?_, ?_, h4, h5, ?_⟩
        · show x.1.wins = _
          rw [h2]; funext p; simp [hc]
        · funext p
          show Function.update x.1.ties n (x.1.ties n + tieShare b i) p = _
          by_cases hp : p = n
          · subst hp
            rw [Function.update_self, h3]
            simp [hbit, hc]
          · rw [Function.update_of_ne hp, h3]
            have : p < n ↔ p < n + 1 := by omega
            simp only [this]
        · show (if n = 0 then x.1.batchEquity + tieShare b i else x.1.batchEquity) = _
          by_cases h0 : n = 0
          · subst h0
            rw [if_pos rfl, h6]; simp [hbit, hc]
          · rw [if_neg h0, h6]
            have : 0 < n ↔ 0 < n + 1 := by omega
            simp only [this]
    · rw [if_neg hbit]
      rw [if_neg hbit, add_zero] at hmod
      refine ⟨by rw [h1, hmod], ?_, ?_, h4, h5, ?_⟩
      · rw [h2]; funext p
        by_cases hp : p = n
        · subst hp; simp [hbit]
        · have : p < n ↔ p < n + 1 := by omega
          simp only [this]
      · rw [h3]; funext p
        by_cases hp : p = n
        · subst hp; simp [hbit]
        · have : p < n ↔ p < n + 1 := by omega
          simp only [this]
      · rw [h6]
        by_cases h0 : n = 0
        · subst h0; simp [hbit]
        · have : 0 < n ↔ 0 < n + 1 := by omega
          simp only [this]

/-- The masks in which player `p` takes part. -/
def maskWins (b : Batch) (p i : Nat) : Nat := if i.testBit p = true ∧ countOnes i = 1 then b.winsByMask i else 0
/-- The integer share of player `p` in the ties of mask `i`. -/
def maskTies (b : Batch) (p i : Nat) : ℚ := if i.testBit p = true ∧ countOnes i ≠ 1 then tieShare b i else 0

theorem mergeMasks_prefix (n : Nat) (b : Batch) (hb : IdPlayers n b) (m : Merge) : ∀ N, N ≤ 2 ^ n →
    let x := (List.range N).foldl (fun m i =>
      let m := { m with batchHands := m.batchHands + b.winsByMask i }
      let x := mergePlayers n b i m
      { x.1 with
        winsByMask := Function.update x.1.winsByMask x.2 (x.1.winsByMask x.2 + b.winsByMask i) }) m
    x.winsByMask = (fun i => m.winsByMask i + if i < N then b.winsByMask i else 0) ∧
    (∀ p < n, x.wins p = m.wins p + ∑ i ∈ range N, maskWins b p i) ∧ (∀ p, n ≤ p → x.wins p = m.wins p) ∧
    (∀ p < n, x.ties p = m.ties p + ∑ i ∈ range N, maskTies b p i) ∧ (∀ p, n ≤ p → x.ties p = m.ties p) ∧
    x.batchHands = m.batchHands + ∑ i ∈ range N, b.winsByMask i ∧
    (0 < n → x.batchEquity = m.batchEquity + ∑ i ∈ range N, ((maskWins b 0 i : ℚ) + maskTies b 0 i)) := by
  intro N
  induction N with
  | zero => intro _; simp
  | succ N ih =>
    intro hN
    obtain ⟨h1, h2, h2', h3, h3', h4, h5⟩ := ih (by omega)
    simp only at h1 h2 h2' h3 h3' h4 h5 ⊢
    rw [List.range_succ, List.foldl_append, List.foldl_cons, List.foldl_nil]
    generalize (List.range N).foldl _ m = x at h1 h2 h2' h3 h3' h4 h5
    obtain ⟨g1, g2, g3, g4, g5, g6⟩ := mergePlayers_eq n b hb N { x with batchHands := x.batchHands + b.winsByMask N } n le_rfl
    generalize mergePlayers n b N { x with batchHands := x.batchHands + b.winsByMask N } = y at g1 g2 g3 g4 g5 g6
    rw [Nat.mod_eq_of_lt (by omega)] at g1
    refine ⟨?_, ?_, ?_, ?_, ?_, ?_, ?_⟩
    · funext i
      rw [g1, g4]
      show Function.update x.winsByMask N (x.winsByMask N + b.winsByMask N) i = _
      by_cases hi : i = N
      · subst hi; rw [Function.update_self, h1]; simp
      · rw [Function.update_of_ne hi, h1]
        have : i < N ↔ i < N + 1 := by omega
        simp only [this]
    · intro p hp
      rw [g2, Finset.sum_range_succ, ← add_assoc, ← h2 p hp]
      simp [hp, maskWins]
    · intro p hp
      rw [g2, ← h2' p hp]
      simp [Nat.not_lt.2 hp]
    · intro p hp
      rw [g3, Finset.sum_range_succ, ← add_assoc, ← h3 p hp]
      simp [hp, maskTies]
    · intro p hp
      rw [g3, ← h3' p hp]
      simp [Nat.not_lt.2 hp]
    · rw [g5, Finset.sum_range_succ, ← add_assoc, ← h4]
    · intro hn
      rw [g6, Finset.sum_range_succ, ← add_assoc, ← h5 hn]
      simp only [maskWins, maskTies, hn, true_and]
      by_cases hb : N.testBit 0 = true <;> by_cases hc : countOnes N = 1 <;> simp [hb, hc]

/-- The counters after `update_results`. -/
structure Merged (n : Nat) (b : Batch) (hb : HandStats) (r r' : Results) : Prop where
  masks : ∀ i < 2 ^ n, r'.winsByMask i = r.winsByMask i + b.winsByMask i
  wins : ∀ p < n, r'.wins p = r.wins p + ∑ i ∈ range (2 ^ n), maskWins b p i
  ties : ∀ p < n, r'.ties p = r.ties p + ∑ i ∈ range (2 ^ n), maskTies b p i
  cells : ∀ k < NUM_HANDS * n, r'.handResults k = (r.handResults k).addAssign (hb k)
  evals : r'.evalCount = r.evalCount + b.evalCount
  combos : r'.comboResults = r.comboResults
  ranks : r'.boardResults = r.boardResults
  draws : r'.boardDraws = r.boardDraws
  outMasks : ∀ i, 2 ^ n ≤ i → r'.winsByMask i = r.winsByMask i
  outCells : ∀ k, NUM_HANDS * n ≤ k → r'.handResults k = r.handResults k

theorem mergeMasks_eq (n : Nat) (b : Batch) (hb : IdPlayers n b) (m : Merge) :
    (mergeMasks n b m).winsByMask = (fun i => m.winsByMask i + if i < 2 ^ n then b.winsByMask i else 0) ∧
    (∀ p < n, (mergeMasks n b m).wins p = m.wins p + ∑ i ∈ range (2 ^ n), maskWins b p i) ∧
    (∀ p, n ≤ p → (mergeMasks n b m).wins p = m.wins p) ∧
    (∀ p < n, (mergeMasks n b m).ties p = m.ties p + ∑ i ∈ range (2 ^ n), maskTies b p i) ∧
    (∀ p, n ≤ p → (mergeMasks n b m).ties p = m.ties p) ∧
    (mergeMasks n b m).batchHands = m.batchHands + ∑ i ∈ range (2 ^ n), b.winsByMask i ∧
    (0 < n → (mergeMasks n b m).batchEquity = m.batchEquity + ∑ i ∈ range (2 ^ n), ((maskWins b 0 i : ℚ) + maskTies b 0 i)) := by
  have h := mergeMasks_prefix n b hb m (2 ^ n) le_rfl
  unfold mergeMasks
  rw [Nat.one_shiftLeft]
  exact h

theorem updateResults_merged (sqrt : ℚ → ℚ) (n : Nat) (ex : Bool) (b : Batch) (hb : HandStats) (r : Results) (hid : IdPlayers n b) :
    Merged n b hb r (updateResults sqrt n ex b hb r) := by
  obtain ⟨h1, h2, _, h3, _, _, _⟩ := mergeMasks_eq n b hid ⟨r.wins, r.ties, r.winsByMask, 0, 0⟩
  unfold updateResults
  cases ex
  all_goals
    refine ⟨fun i hi => ?_, h2, h3, fun k hk => if_pos hk, rfl, rfl, rfl, rfl, fun i hi => ?_, fun k hk => if_neg (by omega)⟩
    · exact (congrFun h1 i).trans (by rw [if_pos hi])
    · exact (congrFun h1 i).trans (by rw [if_neg (by omega), add_zero])

/-- A mask below `2^64` with one bit. -/
theorem countOnes_two_pow {p : Nat} (hp : p < 64) : countOnes (2 ^ p) = 1 := by
  have : ∀ p : Fin 64, countOnes (2 ^ p.1) = 1 := by decide +kernel
  exact this ⟨p, hp⟩

theorem countOnes_one {i p : Nat} (hp : p < 64) (hb : i.testBit p = true) (hc : countOnes i = 1) (hi : i < 2 ^ 64) : i = 2 ^ p := by
  unfold countOnes at hc
  rw [List.length_eq_one_iff] at hc
  obtain ⟨a, ha⟩ := hc
  have hm : ∀ j < 64, i.testBit j = true ↔ j = a := by
    intro j hj
    have : j ∈ (List.range 64).filter (fun k => i.testBit k) ↔ j ∈ [a] := by rw [ha]
    rw [List.mem_filter, List.mem_range, List.mem_singleton] at this
    constructor
    · intro h; exact this.1 ⟨hj, h⟩
    · intro h; exact (this.2 h).2
  have hpa := (hm p hp).1 hb
  subst hpa
  apply Nat.eq_of_testBit_eq
  intro j
  rw [Nat.testBit_two_pow]
  by_cases hj : j < 64
  · rw [Bool.eq_iff_iff, hm j hj, decide_eq_true_iff, eq_comm]
  · rw [Nat.testBit_lt_two_pow (lt_of_lt_of_le hi (Nat.pow_le_pow_right (by omega) (by omega)))]
    symm; rw [decide_eq_false_iff_not]; omega

/-- The wins of a player are the entry of the mask with only that player's bit. -/
theorem sum_maskWins (b : Batch) {n p : Nat} (hp : p < n) (hn : n ≤ 64) : ∑ i ∈ range (2 ^ n), maskWins b p i = b.winsByMask (2 ^ p) := by
  rw [Finset.sum_eq_single (2 ^ p)]
  · unfold maskWins
    rw [if_pos ⟨by rw [Nat.testBit_two_pow]; simp, countOnes_two_pow (by omega)⟩]
  · intro i hi hne
    unfold maskWins
    rw [if_neg]
    rintro ⟨h1, h2⟩
    exact hne (countOnes_one (by omega) h1 h2 (lt_of_lt_of_le (Finset.mem_range.1 hi) (Nat.pow_le_pow_right (by omega) hn)))
  · intro h
    exact absurd (Finset.mem_range.2 (Nat.pow_lt_pow_right (by omega) hp)) h

end Pokers
