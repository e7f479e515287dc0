import Verif.Model.Hand
import Verif.Model.StringLookup
import Verif.Spec.Names
import Verif.Proofs.HandAlgebra
/-! Kernel computations over the whole index and name tables. -/
namespace Pokers
open Spec

theorem index_to_hand_eq : INDEX_TO_HAND = allHands.map handName := by decide +kernel

theorem index_to_combo_eq : INDEX_TO_COMBO = preCombos.map PreCombo.name := by decide +kernel

theorem card_index_all : allHands.map (fun p => getCardIndex p.1 p.2) = List.range 1326 := by decide +kernel

theorem map_index_all : allHands.all (fun p => Nat.blt (cardMapIndex p.1 p.2) 1326) = true := by decide +kernel

theorem hand_index_all :
    allHands.map (fun p => (Hand.fromHoleCards p.1 p.2).getCardIndex) = List.range 1326 := by decide +kernel

theorem mask_index_all : allHands.all (fun p =>
    Nat.blt (63 - leadingZeros 64 (Hand.fromHoleCards p.1 p.2).mask |||
      trailingZeros (Hand.fromHoleCards p.1 p.2).mask <<< 6) 3837) = true := by decide +kernel

end Pokers
