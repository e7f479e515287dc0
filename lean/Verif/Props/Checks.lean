import Verif.Proofs.CheckedFinish
import Verif.Props.Overflow
import Verif.Props.OverflowMc
import Verif.Props.Hands
/-!
# C68: the checks before and after the threads

`C51` and `C59` are about the checks of a debug build in the threads.  Here are the checks in the functions called before and after
them: the unchecked read of `CARD_MAP` in `get_card_index`, the indices of `hand_results`, `board_results` and `board_draws`, the
shifts of the weight flag, and the sums with 32 and 128 bits.  None of them can fail.
-/
namespace Pokers
open Spec

section
variable {ranges : List (List Combo)} {b d nT : Nat} {cancelled stopped : Bool}

theorem Ready.lists (h : Ready ranges b d s ds total size) : (∀ r ∈ s.handRanges, WfRange r) ∧ s.handRanges.length = s.nPlayers ∧ s.nPlayers ≤ 16 := by
  have hf := h.fields
  refine ⟨h.board_hand.1, ?_, ?_⟩
  · rw [hf.2.2.2.2.2.2.2.2.1, hf.1]; simp
  · rw [hf.1]; have := hf.2.2.2.2.2.2.1; omega

theorem McReady.hands (h : McReady ranges b d s) : s.handRanges = ranges.map (fun h => removeConflictingCombos h b d) := by
  obtain ⟨s0, h1, _, h3⟩ := h.exact
  have ha := prepareExact_ok h1
  rw [h3, ha.sim]; rfl

theorem McReady.lists (h : McReady ranges b d s) : (∀ r ∈ s.handRanges, WfRange r) ∧ s.handRanges.length = s.nPlayers ∧ s.nPlayers ≤ 16 := by
  have hf := h.fields
  refine ⟨?_, ?_, ?_⟩
  · rw [h.hands]; exact (filtered_board_hand h.wf b d).1
  · rw [h.hands, hf.1]; simp
  · rw [hf.1]; have := hf.2.2.2.2.2.2.1; omega

/-- C68: before the threads start nothing fails, for every input that is accepted. -/
theorem C68_start (hwf : ∀ r ∈ ranges, WfRange r) {s : Sim} (hok : prepareExact ranges b d = .ok s) :
    startResultsC s = startResults s ∧ (startResultsC s).isSome := by
  have ha := prepareExact_ok hok
  have hands : s.handRanges = ranges.map (fun h => removeConflictingCombos h b d) := by rw [ha.sim]; rfl
  have hn : s.nPlayers = ranges.length := by rw [ha.sim]; simp [Sim.new]
  have hb : s.boardMask = b := by rw [ha.sim]; rfl
  have e : startResultsC s = startResults s := by
    apply startResultsC_eq
    · rw [hands]; exact (filtered_board_hand hwf b d).1
    · rw [hands, hn]; simp
    · rw [hn]; have := ha.players.2; omega
  refine ⟨e, ?_⟩
  obtain ⟨r0, flag, h⟩ := start_some_of hwf hb ((maskCards_length_le b).trans ha.board) hands
  rw [e, h]
  rfl

/-- C68: after the threads have finished nothing fails, whatever they have counted: with counters of 64 bits and weights of eight,
no sum overflows, and every category and draw index is in bounds. -/
theorem C68_finish (hwf : ∀ r ∈ ranges, WfRange r) (hw : ∀ r ∈ ranges, ∀ c ∈ r, c.w ≤ 255) {s : Sim}
    (hok : prepareExact ranges b d = .ok s) {r0 : Results} {flag : Nat} (hstart : startResults s = some (r0, flag))
    {r : Results} (hinfo : ∀ k, (r.handResults k).weight = (r0.handResults k).weight ∧ (r.handResults k).rank = (r0.handResults k).rank ∧
      (r.handResults k).valid = (r0.handResults k).valid)
    (h64 : ∀ k < NUM_HANDS * ranges.length, (r.handResults k).wins < 2 ^ 64 ∧ (r.handResults k).ties < 2 ^ 64 ∧ (r.handResults k).total < 2 ^ 64) :
    finishResultsC s flag r = some (finishResults s flag r) := by
  have ha := prepareExact_ok hok
  have hands : s.handRanges = ranges.map (fun h => removeConflictingCombos h b d) := by rw [ha.sim]; rfl
  have hn : s.nPlayers = ranges.length := by rw [ha.sim]; simp [Sim.new]
  have hb : s.boardMask = b := by rw [ha.sim]; rfl
  apply finishResultsC_eq
  · rw [hands]; exact (filtered_board_hand hwf b d).1
  · rw [hands, hn]; simp
  · rw [hn]; have := ha.players.2; omega
  · rw [hn]; exact h64
  · intro k
    have hc := start_cells hwf hw hb ((maskCards_length_le b).trans ha.board) hands hstart k
    obtain ⟨h1, h2, h3⟩ := hinfo k
    rw [hb]
    refine ⟨?_, fun h4 h5 => ?_⟩
    · show (r.handResults k).weight ≤ 255
      rw [h1]; exact hc.1
    · show (r.handResults k).rank < 9
      rw [h2]; exact hc.2 h4 (h3.symm.trans h5)

theorem finish_some (hwf : ∀ r ∈ ranges, WfRange r) (hb : CardMask b) (hd : CardMask d) (hS : SmallDeals ranges b d) {s : Sim}
    (hok : prepareExact ranges b d = .ok s) {r0 : Results} {flag : Nat} {ds : List DividerU64} {total size : Nat} {w : World}
    (h1 : startResults s = some (r0, flag)) (h2 : s.fastDividers = some ds) (h3 : s.preflopComboCount = some total)
    (h4 : s.reserveSize = some size) (h5 : StepsC s ds total size nT (World.init s r0 cancelled) w) (h6 : ∀ t < nT, (w.locals t).pc = .done) :
    finishResultsC s flag w.shared.results = some (finishResults s flag w.shared.results) := by
  have hr : Ready ranges b d s ds total size := ⟨hwf, hb, hd, hok, h2, h3, h4⟩
  rcases hr.stepsC_sound hS h1 h5 with ⟨t, ht, hp⟩ | ⟨hst, hf⟩
  · rw [h6 t ht] at hp; cases hp
  · obtain ⟨hist, D, g1, _⟩ := run_result hr.processes hr.size_pos hst h6
    refine C68_finish hwf (fun r hr c hc => (hS.percent r hr c hc).trans (by decide)) hok h1 (fun k => ?_) (fun k hk => hf k (by rw [hr.fields.1]; exact hk))
    have := applyFlushes_info id s.nPlayers s.calcExact hist r0 k
    rw [← g1] at this
    exact ⟨congrArg HandInfo.weight this, congrArg HandInfo.rank this, congrArg HandInfo.valid this⟩

/-- C68: so `exact_equity` with all checks is `exact_equity` with the checks in the threads. -/
theorem C68_exact_stages (hwf : ∀ r ∈ ranges, WfRange r) (hb : CardMask b) (hd : CardMask d)
    (hS : SmallDeals ranges b d) (res : Except SimulatorError Results) (sent : List Nat) :
    ExactEquityD ranges b d nT cancelled stopped res sent ↔ ExactEquityC ranges b d nT cancelled stopped res sent := by
  unfold ExactEquityD ExactEquityC
  cases hok : prepareExact ranges b d with
  | error e => rfl
  | ok s =>
    simp only
    have hst := (C68_start hwf hok).1
    constructor
    · rintro ⟨r0, flag, ds, total, size, w, r, h1, h2, h3, h4, h5, h6, h7, h8, h9⟩
      rw [hst] at h1
      rw [finish_some hwf hb hd hS hok h1 h2 h3 h4 h5 h6] at h7
      have := Option.some.inj h7
      subst this
      exact ⟨r0, flag, ds, total, size, w, h1, h2, h3, h4, h5, h6, h8, h9⟩
    · rintro ⟨r0, flag, ds, total, size, w, h1, h2, h3, h4, h5, h6, h8, h9⟩
      exact ⟨r0, flag, ds, total, size, w, _, hst.trans h1, h2, h3, h4, h5, h6, finish_some hwf hb hd hS hok h1 h2 h3 h4 h5 h6, h8, h9⟩

/-- C68: if all showdowns together weigh less than `2^64`, the function with all checks has exactly the results of the function
without. -/
theorem C68_exact (hwf : ∀ r ∈ ranges, WfRange r) (hb : CardMask b) (hd : CardMask d)
    (hS : Small ranges b d) (res : Except SimulatorError Results) (sent : List Nat) :
    ExactEquityD ranges b d nT cancelled stopped res sent ↔ ExactEquity ranges b d nT cancelled stopped res sent :=
  (C68_exact_stages hwf hb hd hS.toSmallDeals res sent).trans
    (C51_no_overflow hwf hb hd hS res sent)

/-- C68: two players: whatever the ranges, the board and the dead cards, `exact_equity` passes all checks. -/
theorem C68_two_players (hwf : ∀ r ∈ ranges, WfRange r) (hb : CardMask b) (hd : CardMask d) (h2 : ranges.length = 2)
    (h100 : ∀ r ∈ ranges, ∀ c ∈ r, c.w ≤ 100) (hr : ∀ r ∈ ranges, r.length ≤ 1326) (res : Except SimulatorError Results) (sent : List Nat) :
    ExactEquityD ranges b d nT cancelled stopped res sent ↔ ExactEquity ranges b d nT cancelled stopped res sent :=
  C68_exact hwf hb hd (C51_two_players h2 h100 hr) res sent

variable {sqrt : ℚ → ℚ} {target : ℚ}

theorem mc_finish_some {s : Sim} (hr : McReady ranges b d s) (hw : ∀ r ∈ ranges, ∀ c ∈ r, c.w ≤ 255) {r0 : Results} {flag : Nat} {w : McWorld}
    (h1 : startResults s = some (r0, flag)) (h2 : McStepsC sqrt target s nT (McWorld.init s r0 cancelled) w)
    (h3 : ∀ t < nT, (w.locals t).pc = .done) : finishResultsC s flag w.shared.results = some (finishResults s flag w.shared.results) := by
  obtain ⟨l1, l2, l3⟩ := hr.lists
  obtain ⟨g1, g2, _⟩ := h2.sound hr h1 (fun t ht => by rw [h3 t ht]; decide)
  obtain ⟨hist, Dr, Dl, hI⟩ := McInv.steps hr g1
  have hf := hr.fields
  refine finishResultsC_eq l1 l2 l3 flag g2 (fun k => ?_)
  rw [hI.res, applyFlushes_info, hf.2.1]
  exact start_cells hr.wf hw hf.2.1 hf.2.2.2.2.2.2.2.2.2 hr.hands h1 k

/-- C68: the same for `approx_equity`, without any condition on the number of showdowns. -/
theorem C68_approx_stages (hwf : ∀ r ∈ ranges, WfRange r) (hb : CardMask b) (hd : CardMask d) (hw : ∀ r ∈ ranges, ∀ c ∈ r, c.w ≤ 255)
    (res : Except SimulatorError Results) (sent : List Nat) :
    ApproxEquityD sqrt ranges b d nT target cancelled res sent ↔ ApproxEquityC sqrt ranges b d nT target cancelled res sent := by
  unfold ApproxEquityD ApproxEquityC
  refine exists_congr fun p => and_congr_right fun hp => ?_
  cases p with
  | error e => rfl
  | ok s =>
    simp only
    have hr : McReady ranges b d s := ⟨hwf, hb, hd, hp⟩
    obtain ⟨l1, l2, l3⟩ := hr.lists
    have hst := startResultsC_eq l1 l2 l3
    constructor
    · rintro ⟨r0, flag, w, r, h1, h2, h3, h4, h5, h6⟩
      rw [hst] at h1
      rw [mc_finish_some hr hw h1 h2 h3] at h4
      have := Option.some.inj h4
      subst this
      exact ⟨r0, flag, w, h1, h2, h3, h5, h6⟩
    · rintro ⟨r0, flag, w, h1, h2, h3, h5, h6⟩
      exact ⟨r0, flag, w, _, hst.trans h1, h2, h3, mc_finish_some hr hw h1 h2 h3, h5, h6⟩

/-- C68: a simulation that made less than `2^64 / 100^n` evaluations passes all checks. -/
theorem C68_approx (hwf : ∀ r ∈ ranges, WfRange r) (hb : CardMask b) (hd : CardMask d) (h100 : ∀ r ∈ ranges, ∀ c ∈ r, c.w ≤ 100)
    {r : Results} {sent : List Nat} (h : ApproxEquity sqrt ranges b d nT target cancelled (.ok r) sent)
    (hroom : r.evalCount * 100 ^ ranges.length < 2 ^ 64) : ApproxEquityD sqrt ranges b d nT target cancelled (.ok r) sent :=
  (C68_approx_stages hwf hb hd (fun r hr c hc => (h100 r hr c hc).trans (by decide)) _ _).2 (C59_no_overflow hwf hb hd h100 h hroom)

end

/-- C68: the unchecked read of `CARD_MAP` is in bounds and the index does not underflow, for two different cards. -/
theorem C68_card_index {a b : Nat} (ha : a < 52) (hb : b < 52) (hab : a ≠ b) : getCardIndexC a b = some (getCardIndex a b) :=
  getCardIndexC_eq ha hb hab

/-- For twice the same card it can underflow, and for a card outside the deck the read can be out of bounds. -/
example : getCardIndexC 0 0 = none ∧ getCardIndexC 51 53 = none := by decide +kernel

/-- The indices are checked: a third of two players has no hand results, and a rank of nine no board results. -/
example : cellC (NUM_HANDS * 2) 2 ⟨0, 1, 100⟩ = none ∧
    (boardHandC 1 0 { UnitResults.default with valid := true, rank := 9 } (fun _ => {}, fun _ => {})).isNone := by
  decide +kernel

/-- A run of the exact calculation with all checks. -/
example : ∃ r sent, ExactEquityD twoHands flopMask 0 2 true true (.ok r) sent := by
  obtain ⟨r, sent, h⟩ := two_run 2 true
  have hwf : ∀ r ∈ twoHands, WfRange r := by unfold WfRange twoHands; decide
  have h100 : ∀ r ∈ twoHands, ∀ c ∈ r, c.w ≤ 100 := by unfold twoHands; decide
  have hb : CardMask flopMask := by unfold CardMask; decide
  refine ⟨r, sent, (C68_exact hwf hb zero_deck (C51_two_players rfl h100 (by unfold twoHands; decide)) _ _).2 h⟩

end Pokers
