import Verif.Proofs.MultiWay
import Verif.Proofs.Exact
/-!
Eight players on the flop: the wins, evaluated by the kernel.
-/
namespace Pokers
open Spec CombinedRange Kernel

/-- A pair of aces against `KsKh`, `KcKd`, `QsQh`, `4s4h`, `6s6h`, `8s8h` and `9d6d`, on the flop `2s 7h Jd`. -/
def acesHands : List (List Combo) :=
  [[⟨48, 49, 100⟩, ⟨48, 50, 100⟩, ⟨48, 51, 100⟩, ⟨49, 50, 100⟩, ⟨49, 51, 100⟩, ⟨50, 51, 100⟩], [⟨44, 45, 100⟩], [⟨46, 47, 100⟩], [⟨40, 41, 100⟩],
   [⟨8, 9, 100⟩], [⟨16, 17, 100⟩], [⟨24, 25, 100⟩], [⟨19, 31, 100⟩]]

def acesBoard : Nat := 1 <<< 0 ||| 1 <<< 21 ||| 1 <<< 39

def acesRow (c1 c2 x y : Nat) : List WHand × List Nat :=
  ([(c1, c2, 100), (44, 45, 100), (46, 47, 100), (40, 41, 100), (8, 9, 100), (16, 17, 100), (24, 25, 100), (19, 31, 100)],
   [1, 2, 3, 4, 5, 6, 7, 10, 11, 12, 13, 14, 15, 18, 20, 22, 23, 26, 27, 28, 29, 30, 32, 33, 34, 35, 36, 37, 38, 42, 43, x, y])

def acesRows : List (List WHand × List Nat) :=
  [acesRow 48 49 50 51, acesRow 48 50 49 51, acesRow 48 51 49 50, acesRow 49 50 48 51, acesRow 49 51 48 50, acesRow 50 51 48 49]

theorem aces_rows : (deals (specRanges acesHands) ([0, 21, 39] ++ [])).map (fun d => (d, freeCards [0, 21, 39] [] d)) = acesRows := by
  decide +kernel

theorem aces_sole : (acesRows.map fun x => soleSum (fun w => bif' (Nat.beq w 99) 1 0) [0, 21, 39] x.1 x.2).sum = 0 := by decide +kernel

theorem aces_counts : (List.range 8).map (fun p =>
    (acesRows.map fun x => Spec.dealWeight x.1 * soleSum (fun w => bif' (Nat.beq w p) 1 0) [0, 21, 39] x.1 x.2).sum) =
    [1866 * 10 ^ 16, 0, 0, 324 * 10 ^ 16, 276 * 10 ^ 16, 156 * 10 ^ 16, 294 * 10 ^ 16, 252 * 10 ^ 16] := by decide +kernel

theorem aces_wf : ∀ r ∈ acesHands, WfRange r := by unfold WfRange acesHands; decide +kernel
theorem aces_deck : CardMask acesBoard := by unfold CardMask; decide
theorem aces_cards : maskCards acesBoard = [0, 21, 39] ∧ maskCards 0 = [] := by decide +kernel

theorem aces_wins : (∀ x ∈ showdowns (specRanges acesHands) (maskCards acesBoard) (maskCards 0), ∃ p, winners x.2 x.1 = [p]) ∧
    (List.range 8).map (fun p => winsOf (showdowns (specRanges acesHands) (maskCards acesBoard) (maskCards 0)) [p]) =
      [1866 * 10 ^ 16, 0, 0, 324 * 10 ^ 16, 276 * 10 ^ 16, 156 * 10 ^ 16, 294 * 10 ^ 16, 252 * 10 ^ 16] := by
  have hok : ∀ d ∈ deals (specRanges acesHands) ([0, 21, 39] ++ []), DealOk [0, 21, 39] [] d := by
    intro d hd
    obtain ⟨_, _, h3, h4⟩ := deals_wf aces_wf hd
    exact ⟨⟨by decide, by decide⟩, by decide, h3, h4⟩
  have h := sole_wins hok aces_rows aces_sole
  rw [aces_cards.1, aces_cards.2]
  refine ⟨h.1, ?_⟩
  rw [← aces_counts]
  apply List.map_congr_left
  intro p _
  exact h.2 p

end Pokers
