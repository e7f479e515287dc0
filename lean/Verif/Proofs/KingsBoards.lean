import Verif.Proofs.KingsPoints
/-!
# Boards on which two kings win
-/
namespace Pokers
open Spec Kernel

/-- A board on which the kings win: the other two kings and three cards that do not matter. -/
def kingsBoard (dd : List WHand) : List Nat := [0, 21, 30] ++ [44, 45, 46, 47].filter fun c => decide (c ∉ dealt dd)

theorem kings_a_aces : ∀ v ∈ pairsOf 12 1, winners (kingsBoard [(45, 44, 100), v]) [(45, 44, 100), v] = [0] := by decide +kernel

theorem kings_a_queens : ∀ v ∈ pairsOf 10 100, winners (kingsBoard [(45, 44, 100), v]) [(45, 44, 100), v] = [0] := by decide +kernel

theorem kings_b_aces : ∀ v ∈ pairsOf 12 1, winners (kingsBoard [(46, 44, 100), v]) [(46, 44, 100), v] = [0] := by decide +kernel

theorem kings_b_queens : ∀ v ∈ pairsOf 10 100, winners (kingsBoard [(46, 44, 100), v]) [(46, 44, 100), v] = [0] := by decide +kernel

theorem kings_c_aces : ∀ v ∈ pairsOf 12 1, winners (kingsBoard [(46, 45, 100), v]) [(46, 45, 100), v] = [0] := by decide +kernel

theorem kings_c_queens : ∀ v ∈ pairsOf 10 100, winners (kingsBoard [(46, 45, 100), v]) [(46, 45, 100), v] = [0] := by decide +kernel

theorem kings_d_aces : ∀ v ∈ pairsOf 12 1, winners (kingsBoard [(47, 44, 100), v]) [(47, 44, 100), v] = [0] := by decide +kernel

theorem kings_d_queens : ∀ v ∈ pairsOf 10 100, winners (kingsBoard [(47, 44, 100), v]) [(47, 44, 100), v] = [0] := by decide +kernel

theorem kings_e_aces : ∀ v ∈ pairsOf 12 1, winners (kingsBoard [(47, 45, 100), v]) [(47, 45, 100), v] = [0] := by decide +kernel

theorem kings_e_queens : ∀ v ∈ pairsOf 10 100, winners (kingsBoard [(47, 45, 100), v]) [(47, 45, 100), v] = [0] := by decide +kernel

theorem kings_f_aces : ∀ v ∈ pairsOf 12 1, winners (kingsBoard [(47, 46, 100), v]) [(47, 46, 100), v] = [0] := by decide +kernel

theorem kings_f_queens : ∀ v ∈ pairsOf 10 100, winners (kingsBoard [(47, 46, 100), v]) [(47, 46, 100), v] = [0] := by decide +kernel

theorem kings_win {h v : WHand} (hh : h ∈ pairsOf 11 100) (hv : v ∈ pairsOf 12 1 ++ pairsOf 10 100) : winners (kingsBoard [h, v]) [h, v] = [0] := by
  rw [List.mem_append] at hv
  simp only [pairsOf, List.mem_cons, List.not_mem_nil, or_false] at hh
  rcases hh with rfl | rfl | rfl | rfl | rfl | rfl
  · exact hv.elim (kings_a_aces v) (kings_a_queens v)
  · exact hv.elim (kings_b_aces v) (kings_b_queens v)
  · exact hv.elim (kings_c_aces v) (kings_c_queens v)
  · exact hv.elim (kings_d_aces v) (kings_d_queens v)
  · exact hv.elim (kings_e_aces v) (kings_e_queens v)
  · exact hv.elim (kings_f_aces v) (kings_f_queens v)

end Pokers
