import Verif.Proofs.PreflopSum
/-!
# Two kings against two aces and against two queens before the flop

The points (two for a win, one for a tie) of the kings on all 1712304 boards.  With respect to one suit there are four kinds of deals: each
of the players may hold a card of the suit or not.
-/
namespace Pokers.Kernel
open Spec

/-- The hand has a card of the suit `s`. -/
def holds (s : Nat) (h : WHand) : Bool := decide (h.1 % 4 = s) || decide (h.2.1 % 4 = s)

/-- The pairs of a rank. -/
def pairsOf (r w : Nat) : List WHand :=
  [(4 * r + 1, 4 * r, w), (4 * r + 2, 4 * r, w), (4 * r + 2, 4 * r + 1, w), (4 * r + 3, 4 * r, w), (4 * r + 3, 4 * r + 1, w),
    (4 * r + 3, 4 * r + 2, w)]

/-- A deal of each kind, and the suit. -/
def model (x y : Bool) (r : Nat) : WHand × WHand × Nat :=
  match x, y with
  | true, true => ((45, 44, 100), (4 * r + 1, 4 * r, 1), 0)
  | false, false => ((45, 44, 100), (4 * r + 1, 4 * r, 1), 2)
  | true, false => ((45, 44, 100), (4 * r + 2, 4 * r + 1, 1), 0)
  | false, true => ((45, 44, 100), (4 * r + 2, 4 * r + 1, 1), 2)

def modelView (x y : Bool) (r : Nat) : View :=
  view (dealt [(model x y r).1, (model x y r).2.1]) (model x y r).1 (model x y r).2.1 (model x y r).2.2

set_option maxRecDepth 100000

theorem aces_view : ∀ h ∈ pairsOf 11 100, ∀ v ∈ pairsOf 12 1, ∀ s ∈ [0, 1, 2, 3],
    view (dealt [h, v]) h v s = modelView (holds s h) (holds s v) 12 := by decide +kernel

theorem queens_view : ∀ h ∈ pairsOf 11 100, ∀ v ∈ pairsOf 10 100, ∀ s ∈ [0, 1, 2, 3],
    view (dealt [h, v]) h v s = modelView (holds s h) (holds s v) 10 := by decide +kernel

theorem aces_base : ∀ h ∈ pairsOf 11 100, ∀ v ∈ pairsOf 12 1, plainGroups (dealt [h, v]) = plainGroups [45, 44, 49, 48] ∧
    (rankSum (cardsOf h), rankSum (cardsOf v)) = (rankSum [45, 44], rankSum [49, 48]) := by decide +kernel

theorem queens_base : ∀ h ∈ pairsOf 11 100, ∀ v ∈ pairsOf 10 100, plainGroups (dealt [h, v]) = plainGroups [45, 44, 41, 40] ∧
    (rankSum (cardsOf h), rankSum (cardsOf v)) = (rankSum [45, 44], rankSum [41, 40]) := by decide +kernel

theorem aces_plain : basePoints (plainGroups [45, 44, 49, 48]) (rankSum [45, 44], rankSum [49, 48]) = 596550 := by decide +kernel
theorem queens_plain : basePoints (plainGroups [45, 44, 41, 40]) (rankSum [45, 44], rankSum [41, 40]) = 2827650 := by decide +kernel

theorem aces_gain_11 : gain (modelView true true 12) = 94 := by decide +kernel
theorem aces_loss_11 : loss (modelView true true 12) = 1662 := by decide +kernel
theorem aces_gain_00 : gain (modelView false false 12) = 1287 := by decide +kernel
theorem aces_loss_00 : loss (modelView false false 12) = 680 := by decide +kernel
theorem aces_gain_10 : gain (modelView true false 12) = 33937 := by decide +kernel
theorem aces_loss_10 : loss (modelView true false 12) = 1868 := by decide +kernel
theorem aces_gain_01 : gain (modelView false true 12) = 3287 := by decide +kernel
theorem aces_loss_01 : loss (modelView false true 12) = 12668 := by decide +kernel

theorem queens_gain_11 : gain (modelView true true 10) = 25250 := by decide +kernel
theorem queens_loss_11 : loss (modelView true true 10) = 23680 := by decide +kernel
theorem queens_gain_00 : gain (modelView false false 10) = 1287 := by decide +kernel
theorem queens_loss_00 : loss (modelView false false 10) = 1892 := by decide +kernel
theorem queens_gain_10 : gain (modelView true false 10) = 33957 := by decide +kernel
theorem queens_loss_10 : loss (modelView true false 10) = 24696 := by decide +kernel
theorem queens_gain_01 : gain (modelView false true 10) = 3266 := by decide +kernel
theorem queens_loss_01 : loss (modelView false true 10) = 35196 := by decide +kernel

/-- What flushes in a suit change for the kings, according to who holds a card of the suit: the points with the flushes counted and without. -/
def acesFlush (x y : Bool) : Nat × Nat :=
  match x, y with
  | true, true => (94, 1662)
  | false, false => (1287, 680)
  | true, false => (33937, 1868)
  | false, true => (3287, 12668)

def queensFlush (x y : Bool) : Nat × Nat :=
  match x, y with
  | true, true => (25250, 23680)
  | false, false => (1287, 1892)
  | true, false => (33957, 24696)
  | false, true => (3266, 35196)

theorem acesFlush_eq (x y : Bool) : gain (modelView x y 12) = (acesFlush x y).1 ∧ loss (modelView x y 12) = (acesFlush x y).2 := by
  cases x <;> cases y
  · exact ⟨aces_gain_00, aces_loss_00⟩
  · exact ⟨aces_gain_01, aces_loss_01⟩
  · exact ⟨aces_gain_10, aces_loss_10⟩
  · exact ⟨aces_gain_11, aces_loss_11⟩

theorem queensFlush_eq (x y : Bool) : gain (modelView x y 10) = (queensFlush x y).1 ∧ loss (modelView x y 10) = (queensFlush x y).2 := by
  cases x <;> cases y
  · exact ⟨queens_gain_00, queens_loss_00⟩
  · exact ⟨queens_gain_01, queens_loss_01⟩
  · exact ⟨queens_gain_10, queens_loss_10⟩
  · exact ⟨queens_gain_11, queens_loss_11⟩

/-- The number of suits in which both hands have a card. -/
def shared (h v : WHand) : Nat := ((List.range 4).filter fun s => holds s h && holds s v).length

/-- The points of two kings against two aces. -/
def acesPoints (h v : WHand) : Nat := [641926, 618277, 594628].getD (shared h v) 0

/-- The points of two kings against two queens. -/
def queensPoints (h v : WHand) : Nat := [2782312, 2805946, 2829580].getD (shared h v) 0

theorem aces_points {h v : WHand} (hh : h ∈ pairsOf 11 100) (hv : v ∈ pairsOf 12 1) :
    ((boards [] [] [h, v]).map fun B => points (ofCards (B ++ cardsOf h)).evaluate (ofCards (B ++ cardsOf v)).evaluate).sum =
      acesPoints h v := by
  have hc : IsCards (dealt [h, v]) := by
    have : ∀ h ∈ pairsOf 11 100, ∀ v ∈ pairsOf 12 1, (dealt [h, v]).Nodup ∧ ∀ c ∈ dealt [h, v], c < 52 := by decide +kernel
    exact this h hh v hv
  have key := known_points (dead := []) hc
  obtain ⟨b1, b2⟩ := aces_base h hh v hv
  have hw := aces_view h hh v hv
  rw [List.nil_append, b1, b2, aces_plain] at key
  simp only [overSuits] at key
  rw [hw 0 (by simp), hw 1 (by simp), hw 2 (by simp), hw 3 (by simp)] at key
  simp only [acesFlush_eq] at key
  have fin : ∀ h ∈ pairsOf 11 100, ∀ v ∈ pairsOf 12 1,
      acesPoints h v + ((acesFlush (holds 0 h) (holds 0 v)).2 + (acesFlush (holds 1 h) (holds 1 v)).2 +
        (acesFlush (holds 2 h) (holds 2 v)).2 + (acesFlush (holds 3 h) (holds 3 v)).2) =
      596550 + ((acesFlush (holds 0 h) (holds 0 v)).1 + (acesFlush (holds 1 h) (holds 1 v)).1 +
        (acesFlush (holds 2 h) (holds 2 v)).1 + (acesFlush (holds 3 h) (holds 3 v)).1) := by decide +kernel
  have := fin h hh v hv
  omega

theorem queens_points {h v : WHand} (hh : h ∈ pairsOf 11 100) (hv : v ∈ pairsOf 10 100) :
    ((boards [] [] [h, v]).map fun B => points (ofCards (B ++ cardsOf h)).evaluate (ofCards (B ++ cardsOf v)).evaluate).sum =
      queensPoints h v := by
  have hc : IsCards (dealt [h, v]) := by
    have : ∀ h ∈ pairsOf 11 100, ∀ v ∈ pairsOf 10 100, (dealt [h, v]).Nodup ∧ ∀ c ∈ dealt [h, v], c < 52 := by decide +kernel
    exact this h hh v hv
  have key := known_points (dead := []) hc
  obtain ⟨b1, b2⟩ := queens_base h hh v hv
  have hw := queens_view h hh v hv
  rw [List.nil_append, b1, b2, queens_plain] at key
  simp only [overSuits] at key
  rw [hw 0 (by simp), hw 1 (by simp), hw 2 (by simp), hw 3 (by simp)] at key
  simp only [queensFlush_eq] at key
  have fin : ∀ h ∈ pairsOf 11 100, ∀ v ∈ pairsOf 10 100,
      queensPoints h v + ((queensFlush (holds 0 h) (holds 0 v)).2 + (queensFlush (holds 1 h) (holds 1 v)).2 +
        (queensFlush (holds 2 h) (holds 2 v)).2 + (queensFlush (holds 3 h) (holds 3 v)).2) =
      2827650 + ((queensFlush (holds 0 h) (holds 0 v)).1 + (queensFlush (holds 1 h) (holds 1 v)).1 +
        (queensFlush (holds 2 h) (holds 2 v)).1 + (queensFlush (holds 3 h) (holds 3 v)).1) := by decide +kernel
  have := fin h hh v hv
  omega

end Pokers.Kernel
