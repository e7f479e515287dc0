import Mathlib.Algebra.BigOperators.Group.List.Basic
import Mathlib.Algebra.Group.Pi.Basic
import Mathlib.Algebra.Group.Prod
import Mathlib.Algebra.BigOperators.Pi
import Mathlib.Algebra.Module.Rat
import Mathlib.Data.List.Basic
import Mathlib.Tactic.Ring
import Mathlib.Tactic.FieldSimp
import Verif.Model.Results
/-!
# `evaluate_hands` credits the players with the highest score
-/
namespace Pokers

/-- The highest score of the first `n` players. -/
def bestOf (sc : Nat → Nat) (n : Nat) : Nat := (List.range n).foldl (fun b i => max b (sc i)) 0

/-- The players with the highest score. -/
def topPlayers (sc : Nat → Nat) (n : Nat) : List Nat := (List.range n).filter fun i => sc i = bestOf sc n

/-- The `u8` mask of a list of players: the ninth player has no bit. -/
def u8Mask (ps : List Nat) : Nat := (ps.map fun i => 2 ^ i % 2 ^ 8).sum

theorem bestOf_succ (sc : Nat → Nat) (n : Nat) : bestOf sc (n + 1) = max (bestOf sc n) (sc n) := by
  unfold bestOf; rw [List.range_succ, List.foldl_append]; rfl

theorem le_bestOf (sc : Nat → Nat) {n i : Nat} (h : i < n) : sc i ≤ bestOf sc n := by
  induction n with
  | zero => omega
  | succ n ih =>
    rw [bestOf_succ]
    by_cases hi : i = n
    · subst hi; exact le_max_right _ _
    · exact (ih (by omega)).trans (le_max_left _ _)

theorem bestOf_mem (sc : Nat → Nat) {n : Nat} (h : 0 < n) : ∃ i < n, sc i = bestOf sc n := by
  induction n with
  | zero => omega
  | succ n ih =>
    rw [bestOf_succ]
    rcases Nat.lt_or_ge (bestOf sc n) (sc n) with h1 | h1
    · exact ⟨n, by omega, by rw [max_eq_right (by omega)]⟩
    · rw [max_eq_left h1]
      by_cases hn : n = 0
      · subst hn; refine ⟨0, by omega, ?_⟩
        have : bestOf sc 0 = 0 := rfl
        omega
      · obtain ⟨i, hi, he⟩ := ih (by omega)
        exact ⟨i, by omega, he⟩

theorem topPlayers_succ (sc : Nat → Nat) (n : Nat) : topPlayers sc (n + 1) =
    if sc n > bestOf sc n then [n] else if sc n = bestOf sc n then topPlayers sc n ++ [n] else topPlayers sc n := by
  unfold topPlayers
  rw [List.range_succ, List.filter_append, bestOf_succ]
  by_cases h1 : sc n > bestOf sc n
  · rw [if_pos h1, max_eq_right (by omega)]
    have : (List.range n).filter (fun i => decide (sc i = sc n)) = [] := by
      rw [List.filter_eq_nil_iff]
      intro i hi
      have := le_bestOf sc (List.mem_range.1 hi)
      simp; omega
    rw [this]; simp
  · rw [if_neg h1, max_eq_left (by omega)]
    by_cases h2 : sc n = bestOf sc n
    · rw [if_pos h2]; simp [h2]
    · rw [if_neg h2]; simp [h2]

theorem topPlayers_lt {sc : Nat → Nat} {n i : Nat} (h : i ∈ topPlayers sc n) : i < n :=
  List.mem_range.1 (List.mem_filter.1 h).1

theorem topPlayers_nodup (sc : Nat → Nat) (n : Nat) : (topPlayers sc n).Nodup := List.nodup_range.filter _

theorem topPlayers_ne_nil (sc : Nat → Nat) {n : Nat} (h : 0 < n) : topPlayers sc n ≠ [] := by
  obtain ⟨i, hi, he⟩ := bestOf_mem sc h
  exact List.ne_nil_of_mem (List.mem_filter.2 ⟨List.mem_range.2 hi, by simpa using he⟩)

/-- The players no one beats. -/
theorem topPlayers_eq (sc : Nat → Nat) (n : Nat) : topPlayers sc n = (List.range n).filter fun i => ∀ j < n, sc j ≤ sc i := by
  unfold topPlayers
  apply List.filter_congr
  intro i hi
  rw [Bool.eq_iff_iff, decide_eq_true_iff, decide_eq_true_iff]
  constructor
  · intro h j hj; rw [h]; exact le_bestOf sc hj
  · intro h
    obtain ⟨j, hj, he⟩ := bestOf_mem sc (Nat.lt_of_le_of_lt (Nat.zero_le i) (List.mem_range.1 hi))
    exact le_antisymm (le_bestOf sc (List.mem_range.1 hi)) (by rw [← he]; exact h j hj)

theorem topPlayers_congr {sc sc' : Nat → Nat} {n : Nat} (h : ∀ i < n, sc i = sc' i) : topPlayers sc n = topPlayers sc' n := by
  rw [topPlayers_eq, topPlayers_eq]
  apply List.filter_congr
  intro i hi
  rw [Bool.eq_iff_iff, decide_eq_true_iff, decide_eq_true_iff]
  have hi := List.mem_range.1 hi
  constructor
  · intro H j hj; rw [← h j hj, ← h i hi]; exact H j hj
  · intro H j hj; rw [h j hj, h i hi]; exact H j hj

/-- `scan` for given scores. -/
def scanSc (sc : Nat → Nat) (n : Nat) : Scan :=
  (List.range n).foldl (fun s i => scanStep s i (sc i))
    { winnerMask := 0, best := 0, playerMask := 1, counter := 0, indexes := fun _ => 0 }

theorem scan_eq (n : Nat) (hands : Nat → Hand) (board : Hand) (flush : Bool) :
    scan n hands board flush = scanSc (fun i => handScore board (hands i) flush) n := rfl

theorem u8Mask_append (a b : List Nat) : u8Mask (a ++ b) = u8Mask a + u8Mask b := by
  unfold u8Mask; rw [List.map_append, List.sum_append]

theorem u8Mask_lt (sc : Nat → Nat) : ∀ n, u8Mask (topPlayers sc n) < 2 ^ n ∧ (8 ≤ n → u8Mask (topPlayers sc n) < 2 ^ 8) := by
  intro n
  induction n with
  | zero => simp [topPlayers, u8Mask]
  | succ n ih =>
    have hp : 2 ^ n % 2 ^ 8 ≤ 2 ^ n := Nat.mod_le _ _
    have h2 : (2 : Nat) ^ (n + 1) = 2 ^ n + 2 ^ n := by rw [pow_succ]; omega
    have hpos : 0 < (2 : Nat) ^ n := Nat.two_pow_pos n
    have single : u8Mask [n] = 2 ^ n % 2 ^ 8 := by simp [u8Mask]
    have h8 : 8 ≤ n + 1 → n = 7 ∨ 2 ^ n % 2 ^ 8 = 0 := by
      intro h
      by_cases h7 : n = 7
      · exact Or.inl h7
      · right
        rw [show n = 8 + (n - 8) by omega, pow_add, Nat.mul_mod_right]
    rw [topPlayers_succ]
    refine ⟨?_, fun h => ?_⟩
    · split
      · rw [single]; omega
      · split
        · rw [u8Mask_append, single]; omega
        · omega
    · rcases h8 h with rfl | h0
      · have := ih.1
        split
        · rw [single]; decide
        · split
          · rw [u8Mask_append, single]; norm_num at this ⊢; omega
          · norm_num at this ⊢; omega
      · have hn : 8 ≤ n := by
          by_contra hc
          have : n = 7 := by omega
          subst this; simp at h0
        have := ih.2 hn
        split
        · rw [single, h0]; decide
        · split
          · rw [u8Mask_append, single, h0]; omega
          · omega

theorem or_shift (m n : Nat) (h : m < 2 ^ n) : m ||| 2 ^ n = m + 2 ^ n := by
  have := Nat.two_pow_add_eq_or_of_lt h 1
  rw [Nat.mul_one] at this
  rw [Nat.or_comm, ← this, Nat.add_comm]

/-- What the loop of `evaluate_hands` computes. -/
theorem scanSc_eq (sc : Nat → Nat) : ∀ n, (scanSc sc n).best = bestOf sc n ∧ (scanSc sc n).playerMask = 2 ^ n % 2 ^ 8 ∧
    (scanSc sc n).winnerMask = u8Mask (topPlayers sc n) ∧ (scanSc sc n).counter = (topPlayers sc n).length ∧
    ∀ j (hj : j < (topPlayers sc n).length), (scanSc sc n).indexes j = (topPlayers sc n)[j] := by
  intro n
  induction n with
  | zero => exact ⟨rfl, rfl, rfl, rfl, fun j hj => by simp [topPlayers] at hj⟩
  | succ n ih =>
    obtain ⟨h1, h2, h3, h4, h5⟩ := ih
    have e : scanSc sc (n + 1) = scanStep (scanSc sc n) n (sc n) := by
      unfold scanSc; rw [List.range_succ, List.foldl_append]; rfl
    have hpm : ∀ x : Nat, x = 2 ^ n % 2 ^ 8 → (x <<< 1) % 2 ^ 8 = 2 ^ (n + 1) % 2 ^ 8 := by
      intro x hx
      rw [hx, Nat.shiftLeft_eq, pow_succ (n := n)]
      omega
    have hm : u8Mask (topPlayers sc n) ||| 2 ^ n % 2 ^ 8 = u8Mask (topPlayers sc n) + 2 ^ n % 2 ^ 8 := by
      by_cases h8 : n < 8
      · rw [Nat.mod_eq_of_lt (Nat.pow_lt_pow_right (by decide) h8), or_shift _ _ (u8Mask_lt sc n).1]
      · rw [show (2 : Nat) ^ n % 2 ^ 8 = 0 by rw [show n = 8 + (n - 8) by omega, pow_add, Nat.mul_mod_right]]
        simp
    rw [e, bestOf_succ]
    unfold scanStep
    simp only [h1]
    by_cases g1 : sc n > bestOf sc n
    · have ht : topPlayers sc (n + 1) = [n] := by rw [topPlayers_succ, if_pos g1]
      simp only [g1, if_true, ht]
      refine ⟨(max_eq_right (by omega)).symm, hpm _ h2, ?_, rfl, ?_⟩
      · rw [h2]; simp [u8Mask]
      · intro j hj
        have : j = 0 := by simpa using hj
        subst this; simp
    · by_cases g2 : sc n = bestOf sc n
      · have ht : topPlayers sc (n + 1) = topPlayers sc n ++ [n] := by rw [topPlayers_succ, if_neg g1, if_pos g2]
        have g1' : ¬ bestOf sc n > bestOf sc n := by omega
        simp only [g2, g1', if_false, if_true, ht]
        refine ⟨?_, hpm _ h2, ?_, ?_, ?_⟩
        · rw [max_eq_left (by omega)]
        · rw [h2, h3, hm, u8Mask_append]; simp [u8Mask]
        · rw [h4, List.length_append]; rfl
        · intro j hj
          rw [List.length_append, List.length_singleton] at hj
          rw [h4]
          by_cases hjl : j = (topPlayers sc n).length
          · subst hjl; simp
          · rw [Function.update_of_ne hjl, h5 j (by omega), List.getElem_append_left]
      · have ht : topPlayers sc (n + 1) = topPlayers sc n := by rw [topPlayers_succ, if_neg g1, if_neg g2]
        simp only [g1, if_false, g2, ht]
        exact ⟨by rw [max_eq_left (by omega)]; exact h1, hpm _ h2, h3, h4, h5⟩

/-! ## The effect on the counters -/

/-- The counters of one hand: wins, ties, total and the part of the shared pots. -/
abbrev Cell := ℕ × ℕ × ℕ × ℚ

/-- `wins_by_mask` and the counters by hand. -/
abbrev Tally := (ℕ → ℕ) × (ℕ → Cell)

def cellOf (u : UnitResults) : Cell := (u.wins, u.ties, u.total, u.correctedTies)

def tallyOf (st : Batch × HandStats) : Tally := (st.1.winsByMask, fun k => cellOf (st.2 k))

/-- What one showdown of weight one with the winners `W` adds to the counters. -/
def contrib (n : Nat) (lookup : Nat → Nat) (W : List Nat) : Tally :=
  (Pi.single (u8Mask W) 1,
   ((List.range n).map fun i => Pi.single (lookup i) ((0, 0, 1, 0) : Cell)).sum +
   if W.length = 1 then (W.map fun i => Pi.single (lookup i) ((1, 0, 0, 0) : Cell)).sum
   else (W.map fun i => Pi.single (lookup i) ((0, 1, 0, 1 / (W.length : ℚ)) : Cell)).sum)

/-- The part of a `UnitResults` that the simulation does not change. -/
def Pristine (u : UnitResults) : Prop :=
  u.equity = some 0 ∧ u.winrate = some 0 ∧ u.tierate = some 0 ∧ u.weight = 0 ∧ u.rank = 255 ∧ u.draw = 0 ∧ u.valid = false

/-- A series of updates of cells, each adding a fixed amount. -/
theorem modify_fold {α : Type} (f : UnitResults → UnitResults) (d : Cell) (hf : ∀ u, cellOf (f u) = cellOf u + d)
    (key : α → Nat) (l : List α) (hs : HandStats) :
    (fun k => cellOf ((l.foldl (fun hs a => modify hs (key a) f) hs) k)) =
      (fun k => cellOf (hs k)) + (l.map fun a => Pi.single (key a) d).sum := by
  induction l generalizing hs with
  | nil => simp
  | cons a l ih =>
    rw [List.foldl_cons, ih, List.map_cons, List.sum_cons, ← add_assoc]
    congr 1
    funext k
    rw [Pi.add_apply]
    unfold modify
    by_cases h : k = key a
    · subst h; rw [Function.update_self, hf, Pi.single_eq_same]
    · rw [Function.update_of_ne h, Pi.single_eq_of_ne h, add_zero]

theorem updateTotal_cell (w : Nat) (u : UnitResults) : cellOf (u.updateTotal w) = cellOf u + (0, 0, w, 0) := by
  simp [cellOf, UnitResults.updateTotal]

theorem updateWins_cell (w : Nat) (u : UnitResults) : cellOf (u.updateWins w) = cellOf u + (w, 0, 0, 0) := by
  simp [cellOf, UnitResults.updateWins]

theorem updateTies_cell (w c : Nat) (u : UnitResults) : cellOf (u.updateTies w c) = cellOf u + (0, w, 0, (w : ℚ) / (c : ℚ)) := by
  simp [cellOf, UnitResults.updateTies]

theorem nsmul_sum_single {α : Type} (w : Nat) (l : List α) (key : α → Nat) (d : Cell) :
    w • (l.map fun a => (Pi.single (key a) d : ℕ → Cell)).sum = (l.map fun a => (Pi.single (key a) (w • d) : ℕ → Cell)).sum := by
  induction l with
  | nil => simp
  | cons a l ih =>
    rw [List.map_cons, List.sum_cons, nsmul_add, ih, List.map_cons, List.sum_cons]
    congr 1
    funext k
    rw [Pi.smul_apply]
    by_cases h : k = key a
    · subst h; rw [Pi.single_eq_same, Pi.single_eq_same]
    · rw [Pi.single_eq_of_ne h, Pi.single_eq_of_ne h, smul_zero]

/-- The scores of the players. -/
abbrev scoresOf (hands : Nat → Hand) (board : Hand) (flush : Bool) (i : Nat) : Nat := handScore board (hands i) flush

/-- `evaluate_hands` adds `weight` times the contribution of the players with the highest score. -/
theorem evaluateHands_tally (n : Nat) (hands : Nat → Hand) (weight : Nat) (board : Hand) (lookup : Nat → Nat) (flush : Bool)
    (st : Batch × HandStats) :
    tallyOf (evaluateHands n hands weight board lookup flush st) =
      tallyOf st + weight • contrib n lookup (topPlayers (scoresOf hands board flush) n) := by
  obtain ⟨_, _, h3, h4, h5⟩ := scanSc_eq (scoresOf hands board flush) n
  rw [← scan_eq] at h3 h4 h5
  unfold evaluateHands tallyOf contrib
  generalize scan n hands board flush = s at h3 h4 h5
  generalize topPlayers (scoresOf hands board flush) n = W at h3 h4 h5
  simp only
  refine Prod.ext ?_ ?_
  · show Function.update st.1.winsByMask s.winnerMask _ = st.1.winsByMask + weight • Pi.single (u8Mask W) 1
    rw [h3]
    funext k
    rw [Pi.add_apply, Pi.smul_apply]
    by_cases h : k = u8Mask W
    · subst h; simp
    · simp [h]
  · show _ = (fun k => cellOf (st.2 k)) + weight • (_ + _)
    rw [nsmul_add, nsmul_sum_single, ← add_assoc]
    have hz : weight • ((0, 0, 1, 0) : Cell) = (0, 0, weight, 0) := by simp
    rw [hz, ← modify_fold _ _ (updateTotal_cell weight)]
    have hW : (List.range s.counter).map s.indexes = W := by
      apply List.ext_getElem
      · simp [h4]
      · intro j h1 h2
        simp only [List.getElem_map, List.getElem_range]
        exact h5 j h2
    by_cases hc : s.counter = 1
    · rw [if_pos hc, if_pos (by omega), nsmul_sum_single]
      have hw : weight • ((1, 0, 0, 0) : Cell) = (weight, 0, 0, 0) := by simp
      rw [hw, ← modify_fold _ _ (updateWins_cell weight), ← hW, hc]
      rfl
    · rw [if_neg hc, if_neg (by omega), nsmul_sum_single]
      have hw : weight • ((0, 1, 0, 1 / (W.length : ℚ)) : Cell) = (0, weight, 0, (weight : ℚ) / (W.length : ℚ)) := by
        simp [div_eq_mul_inv]
      rw [hw, ← modify_fold _ _ (updateTies_cell weight W.length), ← h4]
      conv => rhs; rw [← hW, h4]
      rw [List.foldl_map, h4]

theorem modify_pristine {hs : HandStats} (h : ∀ k, Pristine (hs k)) (f : UnitResults → UnitResults)
    (hf : ∀ u, Pristine u → Pristine (f u)) (k : Nat) : ∀ j, Pristine (modify hs k f j) := by
  intro j
  unfold modify
  by_cases hj : j = k
  · subst hj; rw [Function.update_self]; exact hf _ (h j)
  · rw [Function.update_of_ne hj]; exact h j

theorem modify_fold_pristine {α : Type} (f : UnitResults → UnitResults) (hf : ∀ u, Pristine u → Pristine (f u))
    (key : α → Nat) (l : List α) : ∀ hs : HandStats, (∀ k, Pristine (hs k)) →
    ∀ k, Pristine ((l.foldl (fun hs a => modify hs (key a) f) hs) k) := by
  induction l with
  | nil => intro hs h; exact h
  | cons a l ih => intro hs h; exact ih _ (modify_pristine h f hf _)

theorem evaluateHands_rest (n : Nat) (hands : Nat → Hand) (weight : Nat) (board : Hand) (lookup : Nat → Nat) (flush : Bool)
    (st : Batch × HandStats) :
    (evaluateHands n hands weight board lookup flush st).1.playerIds = st.1.playerIds ∧
    (evaluateHands n hands weight board lookup flush st).1.evalCount = st.1.evalCount + 1 ∧
    ((∀ k, Pristine (st.2 k)) → ∀ k, Pristine ((evaluateHands n hands weight board lookup flush st).2 k)) := by
  refine ⟨rfl, rfl, fun h => ?_⟩
  unfold evaluateHands
  simp only
  have h1 : ∀ k, Pristine (((List.range n).foldl (fun hs i => modify hs (lookup i) (·.updateTotal weight)) st.2) k) :=
    modify_fold_pristine (·.updateTotal weight) (fun u hu => hu) lookup _ _ h
  split
  · exact modify_pristine h1 (·.updateWins weight) (fun u hu => hu) _
  · exact modify_fold_pristine (·.updateTies weight _) (fun u hu => hu) (fun j => lookup ((scan n hands board flush).indexes j)) _ _ h1

end Pokers
