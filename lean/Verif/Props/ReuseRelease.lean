import Verif.Model.TokenRelease
import Verif.Props.Reuse
import Verif.Props.ReleaseMc
/-!
# A token that is used for a second calculation, in a release build (C101)

Nothing changes: a simulation of a release build whose ranges combine into one leaves the token set, and the next calculation with it is
cut short.
-/
namespace Pokers
open Spec CombinedRange

variable {ranges : List (List Combo)} {b d nT : Nat} {target : ℚ} {cancelled token : Bool} {r : Results} {sent : List Nat}

/-- The calls of `ApproxLeavesR` are those of `approx_equity`. -/
theorem approxLeavesR_iff : (∃ token, ApproxLeavesR ranges b d nT target cancelled r sent token) ↔
    ApproxEquityR ranges b d nT target cancelled (.ok r) sent := by
  constructor
  · rintro ⟨token, s, r0, flag, w, hp, h1, h2, h3, rfl, rfl, _⟩
    exact ⟨_, hp, r0, flag, w, h1, h2, h3, rfl, rfl⟩
  · rintro ⟨p, hp, h⟩
    cases p with
    | error e => cases h.1
    | ok s =>
      obtain ⟨r0, flag, w, h1, h2, h3, h4, h5⟩ := h
      injection h4 with h4
      exact ⟨_, s, r0, flag, w, hp, h1, h2, h3, h4, h5, rfl⟩

/-- C101: also in a release build a simulation whose ranges combine into one leaves the token set when it returns. -/
theorem C101_release_token (hwf : ∀ r ∈ ranges, WfRange r) (hb : CardMask b) (hd : CardMask d) (hT : 0 < nT)
    (h1 : (fromRanges (ranges.map fun h => removeConflictingCombos h b d)).length = 1)
    (h : ApproxLeavesR ranges b d nT target cancelled r sent token) : token = true := by
  obtain ⟨s, r0, flag, w', hp, h2, h3, h4, _, _, rfl⟩ := h
  have hr : McReady ranges b d s := ⟨hwf, hb, hd, hp⟩
  obtain ⟨w, hw, hc⟩ := McStepsR.follow hr.approximate (init_mcWorldMod h2 cancelled) h3
  rw [hc.stopped]
  exact C101_left_set (single_kept hr (by rw [hr.crs_length, h1]) hw) hT (by rw [← (hc.locals 0).pc]; exact h4 0 hT)

/-- C101: a simulation of a release build with a token that is already set evaluates at most one batch of 4096 deals per thread. -/
theorem C101_release_next_approx (hwf : ∀ r ∈ ranges, WfRange r) (hb : CardMask b) (hd : CardMask d)
    (h : ApproxEquityR ranges b d nT target true (.ok r) sent) : r.evalCount ≤ 4096 * nT ∧ sent.length ≤ 2 * nT := by
  obtain ⟨r1, sent1, h', ho, hs⟩ := C78_follows hwf hb hd h
  have h2 := C101_next_approx hwf hb hd h'
  have h3 := C53_multiple hwf hb hd h'
  exact ⟨ho.evals ▸ (Nat.mod_le _ _).trans h2, by omega⟩

/-- C101: two calls with the same token in a release build.  After a simulation whose ranges combine into one, a simulation with the same
token evaluates at most one batch per thread. -/
theorem C101_release_approx_after {ranges' : List (List Combo)} {b' d' nT' : Nat} {target' : ℚ} {r' : Results} {sent' : List Nat}
    (hwf : ∀ r ∈ ranges, WfRange r) (hb : CardMask b) (hd : CardMask d) (hT : 0 < nT)
    (h1 : (fromRanges (ranges.map fun h => removeConflictingCombos h b d)).length = 1)
    (h : ApproxLeavesR ranges b d nT target cancelled r sent token)
    (hwf' : ∀ r ∈ ranges', WfRange r) (hb' : CardMask b') (hd' : CardMask d')
    (h' : ApproxEquityR ranges' b' d' nT' target' token (.ok r') sent') : r'.evalCount ≤ 4096 * nT' := by
  rw [C101_release_token hwf hb hd hT h1 h] at h'
  exact (C101_release_next_approx hwf' hb' hd' h').1

/-- C101: and an exact calculation with the same token does not get further than about 10000 evaluations per thread (`K` is the number of
boards of a deal). -/
theorem C101_release_exact_after {ranges' : List (List Combo)} {b' d' nT' K : Nat} {stopped : Bool} {r' : Results} {sent' : List Nat}
    (hwf : ∀ r ∈ ranges, WfRange r) (hb : CardMask b) (hd : CardMask d) (hT : 0 < nT)
    (h1 : (fromRanges (ranges.map fun h => removeConflictingCombos h b d)).length = 1)
    (h : ApproxLeavesR ranges b d nT target cancelled r sent token)
    (hwf' : ∀ r ∈ ranges', WfRange r) (hb' : CardMask b') (hd' : CardMask d') (hR : Room ranges' b' d')
    (hK : boardsPerDeal b' d' ranges'.length = K)
    (h' : ExactEquityR ranges' b' d' nT' token stopped (.ok r') sent') : r'.evalCount ≤ nT' * (9999 + K) := by
  rw [C101_release_token hwf hb hd hT h1 h] at h'
  obtain ⟨r1, sent1, h2, ho, _⟩ := C75_follows hwf' hb' hd' hR h'
  have hle := C95_cancelled hwf' hb' hd' h2
  rw [hK] at hle
  exact ho.evals ▸ (Nat.mod_le _ _).trans hle

/-- Aces against kings on a flop: a simulation with three threads leaves the token set, and a second one with the same token evaluates
one batch of each thread, whatever the target. -/
example (target tiny : ℚ) : ∃ r sent token r' sent', ApproxLeavesR twoHands flopMask 0 3 target false r sent token ∧
    token = true ∧ ApproxEquityR twoHands flopMask 0 3 tiny token (.ok r') sent' ∧ r'.evalCount = 12288 := by
  have hwf : ∀ r ∈ twoHands, WfRange r := by unfold WfRange twoHands; decide
  have hb : CardMask flopMask := by unfold CardMask; decide
  obtain ⟨r0, sent0, h0, he⟩ := two_approx id 0 3 true
  obtain ⟨r, sent, h, _⟩ := C78_runs hwf hb zero_deck target false h0
  obtain ⟨token, h⟩ := approxLeavesR_iff.2 h
  have ht : token = true := C101_release_token hwf hb zero_deck (by decide) (by decide +kernel) h
  obtain ⟨r', sent', h', ho, _⟩ := C78_runs hwf hb zero_deck tiny true h0
  exact ⟨r, sent, token, r', sent', h, ht, by rw [ht]; exact h', by rw [ho.evals, he]; rfl⟩

end Pokers
