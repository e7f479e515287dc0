import Verif.Proofs.ScoreNumbers

/-!
# The scores of hands of two to seven cards

The checks of `Proofs/ScoreNumbers.lean` run by the kernel on the sets of `Proofs/ScoreSets.lean`.
-/

namespace Pokers.Kernel

open Pokers

set_option maxRecDepth 200000

theorem scores_of_2 : ScoreSet 2 scoreSet2 :=
  .of_checks (W := scoreHands2) (size := 12) (by decide) (by decide +kernel) (by decide +kernel) (by decide +kernel) (by decide +kernel)

theorem scores_of_3 : ScoreSet 3 scoreSet3 :=
  .of_checks (W := scoreHands3) (size := 18) (by decide) (by decide +kernel) (by decide +kernel) (by decide +kernel) (by decide +kernel)

theorem scores_of_4 : ScoreSet 4 scoreSet4 :=
  .of_checks (W := scoreHands4) (size := 24) (by decide) (by decide +kernel) (by decide +kernel) (by decide +kernel) (by decide +kernel)

theorem scores_of_5 : ScoreSet 5 scoreSet5 :=
  .of_checks (W := scoreHands5) (size := 30) (by decide) (by decide +kernel) (by decide +kernel) (by decide +kernel) (by decide +kernel)

theorem scores_of_6 : ScoreSet 6 scoreSet6 :=
  .of_checks (W := scoreHands6) (size := 36) (by decide) (by decide +kernel) (by decide +kernel) (by decide +kernel) (by decide +kernel)

theorem scores_of_7 : ScoreSet 7 scoreSet7 :=
  .of_checks (W := scoreHands7) (size := 42) (by decide) (by decide +kernel) (by decide +kernel) (by decide +kernel) (by decide +kernel)

theorem number_2 : countBits scoreSet2 36875 0 0 = 91 := by decide +kernel
theorem number_3 : countBits scoreSet3 36875 0 0 = 455 := by decide +kernel
theorem number_4 : countBits scoreSet4 36875 0 0 = 1820 := by decide +kernel
theorem number_5 : countBits scoreSet5 36875 0 0 = 7462 := by decide +kernel
theorem number_6 : countBits scoreSet6 36875 0 0 = 6075 := by decide +kernel
theorem number_7 : countBits scoreSet7 36875 0 0 = 4824 := by decide +kernel

end Pokers.Kernel
