import Verif.Proofs.DrawMeaning
/-!
# Draw flags (C46)

`get_draw` is called by `set_ranks` for every hand of every range, with the category the hand makes on the board (`0` high card, …,
`4` straight, `5` flush, …).  `drawOf board a b` is the value stored for the hand `a`, `b` (`Verif/Proofs/Ranks.lean`).
-/
namespace Pokers
open Spec

/-- The category with which the simulator calls `get_draw`. -/
def madeCategory (board : List Nat) (a b : Nat) : Nat := categoryOfScore (ofCards (board ++ [a, b])).evaluate

/-- C46: on incomplete boards `get_draw` does not panic for any hand that can be dealt, and the stored value is its result. -/
theorem C46_no_panic {board : List Nat} {a b : Nat} (h : IsCards (board ++ [a, b])) (h5 : board.length < 5) :
    getDraw (Hand.fromHoleCards a b) (ofCards board) (madeCategory board a b) = some (drawOf board a b) := by
  obtain ⟨d, hd⟩ := Option.isSome_iff_exists.1 (getDraw_isSome h h5.le)
  unfold drawOf madeCategory
  rw [if_pos h5, hd]
  rfl

/-- C46: every flag, for every board with fewer than five cards, all hole cards and any category argument.  Straight draws are
reported for categories below a straight, flush draws for categories below a flush, backdoor draws only before the fourth board card. -/
theorem C46_flags {board : List Nat} {a b k d : Nat} (h : IsCards (board ++ [a, b])) (h5 : board.length < 5)
    (hd : getDraw (Hand.fromHoleCards a b) (ofCards board) k = some d) :
    (d.testBit 0 = true ↔ k < 4 ∧ OpenEnded (board ++ [a, b])) ∧
    (d.testBit 1 = true ↔ k < 4 ∧ Gutshot (board ++ [a, b])) ∧
    (d.testBit 2 = true ↔ k < 4 ∧ DoubleGutshot (board ++ [a, b])) ∧
    (d.testBit 3 = true ↔ k < 4 ∧ board.length < 4 ∧ BackdoorStraight (board ++ [a, b])) ∧
    (d.testBit 4 = true ↔ k = 4 ∧ NutStraight board (board ++ [a, b])) ∧
    (d.testBit 5 = true ↔ k < 5 ∧ ∃ s < 4, suitTotal (board ++ [a, b]) s = 4) ∧
    (d.testBit 6 = true ↔ k < 5 ∧ board.length < 4 ∧ ∃ s < 4, suitTotal (board ++ [a, b]) s = 3) ∧
    (d.testBit 7 = true ↔ ∃ s < 4, HoldsBest board [a, b] s ∧ (k < 5 ∧ (suitTotal (board ++ [a, b]) s = 4 ∨
      (suitTotal (board ++ [a, b]) s = 3 ∧ board.length < 4)) ∨ k = 5 ∧ 5 ≤ suitTotal (board ++ [a, b]) s)) ∧
    d < 256 := by
  obtain ⟨h0, h1, h2, h3, h4, h5', h6, h7, h8⟩ := getDraw_bits h h5 hd
  refine ⟨h0, h1, h2, h3, h4, h5', h6, h7, ?_⟩
  exact Nat.lt_pow_two_of_testBit d (n := 8) h8

/-- C46: in the simulator, some straight-draw flag is set exactly when one more card can complete a straight other than A2345; the
open-ended or the double-gutshot flag is set exactly when cards of two different ranks can. -/
theorem C46_straight_draws {board : List Nat} {a b : Nat} (h : IsCards (board ++ [a, b])) (h5 : board.length < 5)
    (hk : madeCategory board a b < 4) :
    (((drawOf board a b).testBit 0 = true ∨ (drawOf board a b).testBit 1 = true ∨ (drawOf board a b).testBit 2 = true) ↔
      ∃ r, Completes (board ++ [a, b]) r) ∧
    (((drawOf board a b).testBit 0 = true ∨ (drawOf board a b).testBit 2 = true) ↔
      ∃ r q, r ≠ q ∧ Completes (board ++ [a, b]) r ∧ Completes (board ++ [a, b]) q) := by
  have hl : (board ++ [a, b]).length = board.length + 2 := by simp
  obtain ⟨h0, h1, h2, -⟩ := getDraw_bits h h5 (C46_no_panic h h5)
  have hs := (category_straights h (by omega) (by omega)).1 hk
  have h13 := (rankBits_ofCards h (by omega)).lt
  constructor
  · rw [h0, h1, h2, ← draw_iff h13 hs]
    simp [hk]
  · rw [h0, h2, ← two_sided_iff h13 (by omega) hs]
    simp [hk]

/-- C46: the backdoor straight flag is set only if two more cards can complete a straight other than A2345, and, before the fourth board
card and without a card that completes one, exactly then. -/
theorem C46_backdoor_straight {board : List Nat} {a b : Nat} (h : IsCards (board ++ [a, b])) (h5 : board.length < 5)
    (hk : madeCategory board a b < 4) :
    ((drawOf board a b).testBit 3 = true → board.length < 4 ∧ ∃ i ≤ 8, 3 ≤ ranksIn (board ++ [a, b]) i (i + 5)) ∧
    (board.length < 4 → (∀ r, ¬ Completes (board ++ [a, b]) r) →
      ((drawOf board a b).testBit 3 = true ↔ ∃ i ≤ 8, 3 ≤ ranksIn (board ++ [a, b]) i (i + 5))) := by
  have hl : (board ++ [a, b]).length = board.length + 2 := by simp
  obtain ⟨-, -, -, h3, -⟩ := getDraw_bits h h5 (C46_no_panic h h5)
  have hs := (category_straights h (by omega) (by omega)).1 hk
  constructor
  · intro hd
    rw [h3] at hd
    exact ⟨hd.2.1, backdoor_sound hd.2.2⟩
  · intro h4 hn
    rw [h3, ← backdoor_iff hs hn]
    simp [hk, h4]

/-- C46: a made straight is flagged as the best one only if no two cards make a higher straight with the board; and a straight other
than A2345 is flagged whenever this is so. -/
theorem C46_nut_straight {board : List Nat} {a b : Nat} (h : IsCards (board ++ [a, b])) (h5 : board.length < 5)
    (hk : madeCategory board a b = 4) :
    ((drawOf board a b).testBit 4 = true → ∃ t, HasStraight (board ++ [a, b]) t ∧
      ∀ x y t', IsCards (board ++ [x, y]) → HasStraight (board ++ [x, y]) t' → t' ≤ t) ∧
    ∀ t, t ≠ 3 → HasStraight (board ++ [a, b]) t → (∀ x y t', IsCards (board ++ [x, y]) → HasStraight (board ++ [x, y]) t' → t' ≤ t) →
      (drawOf board a b).testBit 4 = true := by
  have hl : (board ++ [a, b]).length = board.length + 2 := by simp
  have hb : IsCards board := ⟨(List.nodup_append.1 h.1).1, fun c hc => h.2 c (by simp [hc])⟩
  obtain ⟨-, -, -, -, h4, -⟩ := getDraw_bits h h5 (C46_no_panic h h5)
  have hs := (category_straights h (by omega) (by omega)).2 hk
  rw [h4, nutStraight_iff hs]
  constructor
  · rintro ⟨_, t, ht, hhigh, _⟩
    refine ⟨t, ht, fun x y t' hx ht' => ?_⟩
    by_contra hc
    have h1 := ht.1
    have := (can_make hb h5 (by omega) ht'.2.1).2 ⟨x, y, hx, ht'⟩
    have := hhigh t' (by omega) ht'.2.1
    omega
  · intro t h3 ht hbest
    refine ⟨hk, t, ht, fun t' hlt h12 => ?_, fun he => absurd he h3⟩
    by_contra hc
    have h1 := ht.1
    obtain ⟨x, y, hx, ht'⟩ := (can_make hb h5 (by omega) h12).1 (by omega)
    have := hbest x y t' hx ht'
    omega

/-- C46, finding: draws to A2345 are not reported.  Ace and two with a three, a four and a king on the board are reported as a backdoor draw
only (flag 8), although every five completes A2345.  Two to five without an ace (where an ace or a six completes a straight) are reported as a gutshot only. -/
theorem C46_wheel_draws :
    drawOf [4 * 1 + 0, 4 * 2 + 1, 4 * 11 + 2] (4 * 12 + 3) (4 * 0 + 0) = 8 ∧
    madeCategory [4 * 1 + 0, 4 * 2 + 1, 4 * 11 + 2] (4 * 12 + 3) (4 * 0 + 0) = 0 ∧
    madeCategory [4 * 1 + 0, 4 * 2 + 1, 4 * 11 + 2, 4 * 3 + 1] (4 * 12 + 3) (4 * 0 + 0) = 4 ∧
    drawOf [4 * 0 + 0, 4 * 1 + 1, 4 * 9 + 2] (4 * 2 + 3) (4 * 3 + 0) = 2 := by
  decide +kernel

/-- C46, finding: the best possible straight is not flagged when it is A2345 and the ace is one of only three of its cards on the board:
ace, two, three on the board and four, five in the hand, where nobody can make another straight. -/
theorem C46_wheel_nut :
    madeCategory [4 * 12 + 0, 4 * 0 + 1, 4 * 1 + 2] (4 * 2 + 3) (4 * 3 + 0) = 4 ∧
    drawOf [4 * 12 + 0, 4 * 0 + 1, 4 * 1 + 2] (4 * 2 + 3) (4 * 3 + 0) = 0 ∧
    (∀ x < 52, ∀ y < 52, IsCards ([4 * 12 + 0, 4 * 0 + 1, 4 * 1 + 2] ++ [x, y]) → ∀ t, HasStraight ([4 * 12 + 0, 4 * 0 + 1, 4 * 1 + 2] ++ [x, y]) t → t = 3) := by
  refine ⟨by decide +kernel, by decide +kernel, ?_⟩
  intro x hx y hy _ t ht
  by_contra hne
  have h1 := ht.1
  have h5 := ranksIn_straight (by omega) ht
  have := ranksIn_hole [4 * 12 + 0, 4 * 0 + 1, 4 * 1 + 2] x y (t - 4) (t + 1)
  have hb : ∀ t ≤ 12, 4 ≤ t → ranksIn [4 * 12 + 0, 4 * 0 + 1, 4 * 1 + 2] (t - 4) (t + 1) ≤ 2 := by decide +kernel
  have := hb t ht.2.1 (by omega)
  omega

/-- C46, finding: the flush-draw flags count the board alone: four hearts on the board give every hand without a heart a flush draw. -/
theorem C46_board_flush_draw : drawOf [4 * 0 + 1, 4 * 5 + 1, 4 * 7 + 1, 4 * 11 + 1] (4 * 2 + 0) (4 * 8 + 2) = 32 := by decide +kernel

/-- The hypotheses hold for ordinary hands: an open-ended draw with a flush draw to the best flush on the flop, the best straight, a
made best flush, a double gutshot, and a backdoor draw. -/
example : IsCards ([4 * 9 + 0, 4 * 8 + 0, 4 * 2 + 1] ++ [4 * 12 + 0, 4 * 11 + 0]) ∧
    madeCategory [4 * 9 + 0, 4 * 8 + 0, 4 * 2 + 1] (4 * 12 + 0) (4 * 11 + 0) = 0 ∧
    drawOf [4 * 9 + 0, 4 * 8 + 0, 4 * 2 + 1] (4 * 12 + 0) (4 * 11 + 0) = 2 + 32 + 128 ∧
    drawOf [4 * 9 + 0, 4 * 8 + 1, 4 * 2 + 1] (4 * 10 + 2) (4 * 7 + 3) = 1 ∧
    madeCategory [4 * 9 + 0, 4 * 8 + 1, 4 * 10 + 1] (4 * 12 + 2) (4 * 11 + 3) = 4 ∧
    drawOf [4 * 9 + 0, 4 * 8 + 1, 4 * 10 + 1] (4 * 12 + 2) (4 * 11 + 3) = 16 ∧
    madeCategory [4 * 9 + 0, 4 * 8 + 0, 4 * 2 + 0] (4 * 12 + 0) (4 * 4 + 0) = 5 ∧
    drawOf [4 * 9 + 0, 4 * 8 + 0, 4 * 2 + 0] (4 * 12 + 0) (4 * 4 + 0) = 128 ∧
    drawOf [4 * 0 + 0, 4 * 2 + 1, 4 * 3 + 1] (4 * 4 + 2) (4 * 6 + 3) = 2 + 4 ∧
    drawOf [4 * 0 + 0, 4 * 4 + 1, 4 * 5 + 2] (4 * 6 + 3) (4 * 11 + 3) = 8 := by
  decide +kernel

end Pokers
