import Verif.Proofs.BoardTables
import Verif.Props.Index
/-!
# Combo results and tables in terms of the hands
-/
namespace Pokers
open Spec

/-- The results of the given hands of player `p`. -/
def handsOf (p : Nat) (hr : Nat → UnitResults) (hands : List (Nat × Nat)) : List UnitResults :=
  hands.map fun h => hr (NUM_HANDS * p + getCardIndex h.1 h.2)

theorem row_eq (p : Nat) (hr : Nat → UnitResults) : row p hr = handsOf p hr allHands := by
  unfold row handsOf
  have := congrArg (List.map fun j => hr (NUM_HANDS * p + j)) card_index_all
  rw [List.map_map] at this
  rw [Nat.mul_comm p]
  exact this.symm

theorem starts_all : starts NUM_HANDS 0 = (List.range 169).map comboStart := by decide +kernel

theorem comboBlocks : ∀ k < 169, batchSize (comboStart k) = (preCombos.getD k ⟨0, 0, .pair⟩).hands.length ∧
    (List.range (batchSize (comboStart k))).map (comboStart k + ·) =
      (preCombos.getD k ⟨0, 0, .pair⟩).hands.map (fun h => getCardIndex h.1 h.2) := by decide +kernel

theorem comboUnit_hands (i : Nat) (hr : Nat → UnitResults) : (starts NUM_HANDS 0).map (fun j => comboUnit i j hr) =
    preCombos.map fun c => finalCombo c.hands.length (aggOf (handsOf i hr c.hands)) := by
  rw [starts_all, List.map_map]
  apply List.ext_getElem
  · rw [List.length_map, List.length_map, List.length_range, preCombos_length]
  · intro k h1 h2
    rw [List.getElem_map, List.getElem_map, List.getElem_range]
    rw [List.length_map, List.length_range] at h1
    rw [List.length_map] at h2
    obtain ⟨b1, b2⟩ := comboBlocks k h1
    rw [List.getD_eq_getElem _ _ h2] at b1 b2
    show comboUnit i (comboStart k) hr = _
    unfold comboUnit handsOf
    rw [← b1]
    have := congrArg (List.map fun j => hr (NUM_HANDS * i + j)) b2
    rw [List.map_map, List.map_map] at this
    congr 2
    rw [Nat.mul_comm i]
    simp only [Nat.add_assoc]
    exact this

/-- The hands that count for a combo. -/
def counted (us : List UnitResults) : List UnitResults := us.filter fun u => decide (u.valid = true ∧ 0 < u.total)

theorem aggOf_eq (us : List UnitResults) : aggOf us =
    { counter := (counted us).length, weight := (sumHands (counted us)).weight, wins := (sumHands (counted us)).wins,
      ties := (sumHands (counted us)).ties, correctedTies := (sumHands (counted us)).correctedTies,
      total := (sumHands (counted us)).total } := by
  have key : ∀ (us : List UnitResults) (a : Agg), us.foldl (fun a u => (finalHand u a).2) a =
      { counter := a.counter + (counted us).length, weight := a.weight + (sumHands (counted us)).weight,
        wins := a.wins + (sumHands (counted us)).wins, ties := a.ties + (sumHands (counted us)).ties,
        correctedTies := a.correctedTies + (sumHands (counted us)).correctedTies, total := a.total + (sumHands (counted us)).total } := by
    intro us
    induction us with
    | nil => intro a; simp [counted, sumHands]
    | cons u us ih =>
      intro a
      rw [List.foldl_cons, ih]
      unfold counted finalHand
      rw [List.filter_cons]
      by_cases hv : u.valid = true
      · by_cases ht : u.total > 0
        · rw [if_pos hv, if_pos ht, if_pos (decide_eq_true ⟨hv, ht⟩)]
          simp [sumHands, add_assoc, Nat.add_comm, Nat.add_left_comm]
        · rw [if_pos hv, if_neg ht, if_neg (by simp only [decide_eq_true_eq]; exact fun h => ht h.2)]
      · rw [if_neg hv, if_neg (by simp only [decide_eq_true_eq]; exact fun h => hv h.1)]
  unfold aggOf
  rw [key]
  simp

/-- Dividing by `⌊total / u64::MAX⌋ + 1` brings the total into range. -/
theorem ratio_fits (t : Nat) : t / (t / U64_MAX + 1) ≤ U64_MAX := by
  have hpos : 0 < U64_MAX := by unfold U64_MAX; omega
  have h1 : t < (t / U64_MAX + 1) * U64_MAX := by
    have := Nat.lt_div_mul_add (a := t) hpos
    rw [Nat.add_mul, Nat.one_mul]; exact this
  have h2 : t / (t / U64_MAX + 1) < U64_MAX := by
    rw [Nat.div_lt_iff_lt_mul (Nat.succ_pos _), Nat.mul_comm]; exact h1
  exact h2.le

/-- The divisor that keeps the published sums within 64 bits. -/
def scale (t : Nat) : Nat := if t > U64_MAX then t / U64_MAX + 1 else 1

theorem scale_pos (t : Nat) : 0 < scale t := by unfold scale; split <;> [exact Nat.succ_pos _; exact Nat.one_pos]

theorem scale_small {t : Nat} (h : t < 2 ^ 64) : scale t = 1 := by unfold scale U64_MAX; rw [if_neg (by omega)]

theorem scale_fits (t : Nat) : t / scale t < 2 ^ 64 := by
  unfold scale
  split
  · have := ratio_fits t
    unfold U64_MAX at *; omega
  · rw [Nat.div_one]; unfold U64_MAX at *; omega

theorem scaled_pos {t : Nat} (h : 0 < t) : 0 < t / scale t := by
  apply Nat.div_pos _ (scale_pos t)
  unfold scale
  split
  · have : t / U64_MAX ≤ t / 2 := Nat.div_le_div_left (by unfold U64_MAX; omega) (by omega)
    unfold U64_MAX at *; omega
  · omega

/-- The record published for a combo, given the sums over its hands. -/
def comboRecord (size : Nat) (b : BigUnitResults) : UnitResults :=
  let k := scale b.total
  { wins := b.wins / k, ties := b.ties / k, total := b.total / k, correctedTies := b.correctedTies / (k : ℚ),
    equity := some (((b.wins / k : Nat) + b.correctedTies / (k : ℚ)) / (b.total / k : Nat)),
    winrate := some (((b.wins / k : Nat) : ℚ) / (b.total / k : Nat)),
    tierate := some (((b.ties / k : Nat) : ℚ) / (b.total / k : Nat)),
    weight := b.weight / size, rank := 255, draw := 0, valid := true }

theorem sumHands_pos {us : List UnitResults} (h : counted us ≠ []) : 0 < (sumHands (counted us)).total := by
  obtain ⟨u, l, hl⟩ := List.exists_cons_of_ne_nil h
  have hu : u ∈ counted us := by rw [hl]; simp
  have := (of_decide_eq_true (List.mem_filter.1 hu).2).2
  rw [hl]
  simp only [sumHands, List.map_cons, List.sum_cons]
  omega

theorem fdiv_of_ne {a b : ℚ} (h : b ≠ 0) : fdiv a b = some (a / b) := by unfold fdiv; rw [if_neg h]

theorem finalCombo_eq (size : Nat) (us : List UnitResults) (hw : (sumHands (counted us)).wins ≤ (sumHands (counted us)).total)
    (ht : (sumHands (counted us)).ties ≤ (sumHands (counted us)).total) :
    finalCombo size (aggOf us) = if counted us = [] then UnitResults.default else comboRecord size (sumHands (counted us)) := by
  rw [aggOf_eq]
  unfold finalCombo
  simp only
  by_cases h0 : counted us = []
  · rw [if_pos h0, if_neg]
    simp [h0]
  · have hpos : (counted us).length > 0 := List.length_pos_of_ne_nil h0
    rw [if_pos hpos, if_neg h0]
    have hp := sumHands_pos h0
    generalize sumHands (counted us) = b at *
    have e1 : ∀ x : Nat, (if b.total > U64_MAX then x / (if b.total > U64_MAX then b.total / U64_MAX + 1 else 1) else x) = x / scale b.total := by
      intro x
      unfold scale
      split
      · rfl
      · rw [Nat.div_one]
    have e2 : (if b.total > U64_MAX then b.correctedTies / ((if b.total > U64_MAX then b.total / U64_MAX + 1 else 1 : Nat) : ℚ) else b.correctedTies)
        = b.correctedTies / (scale b.total : ℚ) := by
      unfold scale
      split
      · rfl
      · simp
    rw [e1, e1, e1, e2]
    have f1 := scale_fits b.total
    have f2 : b.wins / scale b.total < 2 ^ 64 := lt_of_le_of_lt (Nat.div_le_div_right hw) f1
    have f3 : b.ties / scale b.total < 2 ^ 64 := lt_of_le_of_lt (Nat.div_le_div_right ht) f1
    have hne : ((b.total / scale b.total : Nat) : ℚ) ≠ 0 := by
      have := scaled_pos hp
      exact_mod_cast (by omega)
    rw [Nat.mod_eq_of_lt f1, Nat.mod_eq_of_lt f2, Nat.mod_eq_of_lt f3, fdiv_of_ne hne, fdiv_of_ne hne, fdiv_of_ne hne]
    rfl

/-- The record published for a table entry, given the sums over its hands. -/
def tableRecord (b : BigUnitResults) : UnitResults :=
  let k := scale b.total
  if b.total = 0 then UnitResults.default
  else
    { wins := b.wins / k, ties := b.ties / k, total := b.total / k, correctedTies := b.correctedTies / (k : ℚ),
      equity := some (((b.wins / k : Nat) + b.correctedTies / (k : ℚ)) / (b.total / k : Nat)),
      winrate := some (((b.wins / k : Nat) : ℚ) / (b.total / k : Nat)),
      tierate := some (b.correctedTies / (k : ℚ) / (b.total / k : Nat)),
      weight := b.weight, rank := 255, draw := 0, valid := false }

theorem boardUnit_eq (b : BigUnitResults) (hw : b.wins ≤ b.total) (ht : b.ties ≤ b.total) :
    boardUnit b UnitResults.default = tableRecord b := by
  unfold boardUnit tableRecord
  simp only
  by_cases h0 : b.total = 0
  · rw [if_neg (by omega), if_pos h0]
  · have hp : b.total > 0 := by omega
    rw [if_pos hp, if_neg h0]
    have e : (if b.total > U64_MAX then b.total / U64_MAX + 1 else 1) = scale b.total := rfl
    rw [e]
    have f1 := scale_fits b.total
    have f2 : b.wins / scale b.total < 2 ^ 64 := lt_of_le_of_lt (Nat.div_le_div_right hw) f1
    have f3 : b.ties / scale b.total < 2 ^ 64 := lt_of_le_of_lt (Nat.div_le_div_right ht) f1
    have hne : ((b.total / scale b.total : Nat) : ℚ) ≠ 0 := by
      have := scaled_pos hp
      exact_mod_cast (by omega)
    rw [Nat.mod_eq_of_lt f1, Nat.mod_eq_of_lt f2, Nat.mod_eq_of_lt f3, fdiv_of_ne hne, fdiv_of_ne hne, fdiv_of_ne hne]
    rfl

theorem sumHands_le {us : List UnitResults} (h : ∀ u ∈ us, u.wins + u.ties ≤ u.total) :
    (sumHands us).wins + (sumHands us).ties ≤ (sumHands us).total := by
  induction us with
  | nil => simp [sumHands]
  | cons u us ih =>
    have h1 := h u (by simp)
    have h2 := ih (fun v hv => h v (by simp [hv]))
    simp only [sumHands, List.map_cons, List.sum_cons] at h2 ⊢
    omega

end Pokers
