import Verif.Props.ReleaseMc
import Verif.Proofs.TokenReleaseMc
/-!
C102: the caller of C100 and a release build.  Counters are `u64` numbers modulo `2 ^ 64` and the rest is rounded, so a batch that is
merged once more could change a result by rounding it again.  It does not: the results are those of callers who set the token at most
once, digit by digit.
-/
namespace Pokers
open Spec

variable {ranges : List (List Combo)} {b d nT : Nat} {cancelled seen : Bool} {r : Results} {sent : List Nat} {target : ℚ}

/-- C102: whatever the caller stores in the token, the result of a release build is also the result of one whose token is clear at the
start and set later only if a thread found it set. -/
theorem C102_exact (h : OwnerEquityR ranges b d nT cancelled seen (.ok r) sent) :
    ∃ sent', ExactEquityR ranges b d nT false seen (.ok r) sent' := by
  unfold OwnerEquityR at h
  split at h
  · exact absurd h.1 (by simp)
  · rename_i s hok
    obtain ⟨r0, flag, ds, size, w, h1, h2, h4, h5, h6, h7, _⟩ := h
    obtain ⟨u, u1, u2, u3, u4⟩ := h5.finished (startResults_stored h1) h6
    refine ⟨u.shared.sent, ?_⟩
    unfold ExactEquityR
    rw [hok]
    exact ⟨r0, flag, ds, size, u, h1, h2, h4, u1, u2, by rw [u3]; exact h7, rfl, u4.symm⟩

/-- C102: the errors are those of the debug build, and the token plays no part in them. -/
theorem C102_errors {e : SimulatorError} :
    OwnerEquityR ranges b d nT cancelled seen (.error e) sent ↔ prepareExact ranges b d = .error e ∧ sent = [] := by
  unfold OwnerEquityR
  split
  · rename_i e' he
    rw [he]
    constructor
    · rintro ⟨h1, h2⟩
      exact ⟨by injection h1 with h1; rw [h1], h2⟩
    · rintro ⟨h1, h2⟩
      exact ⟨by injection h1 with h1; rw [h1], h2⟩
  · rename_i s hok
    rw [hok]
    constructor
    · rintro ⟨_, _, _, _, _, _, _, _, _, _, h, _⟩
      cases h
    · rintro ⟨h, _⟩
      cases h

/-- C102: if no thread found the token set, all showdowns are counted: every hand has its wins, ties and total modulo `2 ^ 64`, and up
to eight players every set of winners and every player. -/
theorem C102_unseen (hwf : ∀ r ∈ ranges, WfRange r) (hb : CardMask b) (hd : CardMask d) (hR : Room ranges b d) (hT : 0 < nT)
    (h : OwnerEquityR ranges b d nT cancelled false (.ok r) sent) :
    let sd := showdowns (specRanges ranges) (maskCards b) (maskCards d)
    (∀ p < ranges.length, ∀ x < 52, ∀ y < 52, x ≠ y →
      let u := r.handResults (NUM_HANDS * p + getCardIndex x y)
      u.wins = handWins sd p x y % 2 ^ 64 ∧ u.ties = handTies sd p x y % 2 ^ 64 ∧ u.total = handTotal sd p x y % 2 ^ 64) ∧
    (ranges.length ≤ 8 → (∀ i < 2 ^ ranges.length, r.winsByMask i = winsOf sd (maskPlayers ranges.length i) % 2 ^ 64) ∧
      ∀ p < ranges.length, r.wins p = winsOf sd [p] % 2 ^ 64) := by
  obtain ⟨sent', h'⟩ := C102_exact h
  exact ⟨fun p hp x hx y hy hxy => C75_hands hwf hb hd hR hT h' hp hx hy hxy, fun h8 => C75_masks hwf hb hd hR hT h8 h'⟩

/-- C102: two players with ordinary weights get the result of the floating-point model, where nothing overflows. -/
theorem C102_two_players (hwf : ∀ r ∈ ranges, WfRange r) (hb : CardMask b) (hd : CardMask d) (h2 : ranges.length = 2)
    (h100 : ∀ r ∈ ranges, ∀ c ∈ r, c.w ≤ 100) (hr : ∀ r ∈ ranges, r.length ≤ 1326)
    (h : OwnerEquityR ranges b d nT cancelled seen (.ok r) sent) :
    ∃ sent', ExactEquityF ranges b d nT false seen (.ok r) sent' := by
  obtain ⟨sent', h'⟩ := C102_exact h
  exact ⟨sent', (C75_two_players hwf hb hd h2 h100 hr _ _).1 h'⟩

/-- C102: a caller who only sets the token is a special case. -/
theorem C102_set {stopped : Bool} (h : ExactEquityR ranges b d nT cancelled stopped (.ok r) sent) :
    ∃ seen, OwnerEquityR ranges b d nT cancelled seen (.ok r) sent := by
  unfold ExactEquityR at h
  unfold OwnerEquityR
  split at h
  · exact absurd h.1 (by simp)
  · rename_i s hok
    obtain ⟨r0, flag, ds, size, w, h1, h2, h4, h5, h6, h7, h8, _⟩ := h
    obtain ⟨seen, h5⟩ := h5.owner
    rw [hok]
    exact ⟨seen, r0, flag, ds, size, w, h1, h2, h4, h5, h6, h7, h8⟩

/-- No thread clears the token. -/
theorem threadStepR_stopped (s : Sim) (ds : List DividerU64) (total size : Nat) (l : Local) (g : Shared) :
    (threadStepR s ds total size l g).2.stopped = g.stopped := by
  unfold threadStepR
  split
  · rfl
  · split
    · rfl
    · dsimp only
      split <;> rfl
  · rfl
  · split <;> rfl
  · rfl
  · rfl
  · rfl

/-- Steps after which the token is clear, from a state with a set token that the caller clears first. -/
theorem StepsR.cleared {s : Sim} {ds : List DividerU64} {total size : Nat} {r0 : Results} {w : World}
    (h : StepsR s ds total size nT (World.init s r0 false) w) (hst : w.shared.stopped = false) (x : Bool) :
    OwnerStepsR s ds total size nT (World.init s r0 x) false w := by
  induction h with
  | refl => exact .step .refl (.store (World.init s r0 x) false)
  | @step u _ hs hstep ih =>
    cases hstep with
    | thread t ht hpc =>
      have hu : u.shared.stopped = false := by rw [← hst]; exact (threadStepR_stopped ..).symm
      have h2 := OwnerStepsR.step (ih hu) (.thread u t ht hpc)
      rw [hu, Bool.and_false, Bool.or_false] at h2
      exact h2
    | cancel => cases hst

/-- C102: a token that is set before the calculation and cleared before a thread reads it does nothing. -/
theorem C102_cleared (h : ExactEquityR ranges b d nT false false (.ok r) sent) (x : Bool) :
    OwnerEquityR ranges b d nT x false (.ok r) sent := by
  unfold ExactEquityR at h
  unfold OwnerEquityR
  split at h
  · exact absurd h.1 (by simp)
  · rename_i s hok
    obtain ⟨r0, flag, ds, size, w, h1, h2, h4, h5, h6, h7, h8, h9⟩ := h
    rw [hok]
    exact ⟨r0, flag, ds, size, w, h1, h2, h4, h5.cleared h9.symm x, h6, h7, h8⟩

/-- C102: the random simulation of a release build.  What has been counted can also be counted by a simulation that never reaches its
target and whose token is set only by the caller; only the sums over the batches and the standard deviation may differ. -/
theorem C102_approx (h : McOwnerEquityR ranges b d nT target cancelled (.ok r) sent) :
    ∃ r' sent', ApproxEquityR ranges b d nT 0 false (.ok r') sent' ∧ r'.counted = r.counted := by
  obtain ⟨p, hp, h⟩ := h
  cases p with
  | error e => exact absurd h.1 (by simp)
  | ok s =>
    obtain ⟨r0, flag, w, h1, h2, h3, h4, _⟩ := h
    obtain ⟨u, u1, u2, u3⟩ := h2.finished (startResults_stored h1) (by rw [(start_noBatch h1).2.2]) h3
    have hr : r = finishResultsF s flag w.shared.results := by simpa using h4
    refine ⟨_, _, ⟨.ok s, hp, r0, flag, u, h1, u1, u2, rfl, rfl⟩, ?_⟩
    rw [hr, finishResultsF_counted, finishResultsF_counted, u3]

/-- C102: so, as in `C78_counts`, what is counted is a list of legal showdowns modulo `2 ^ 64`, and its length is a multiple of
4096. -/
theorem C102_approx_counts (hwf : ∀ r ∈ ranges, WfRange r) (hb : CardMask b) (hd : CardMask d)
    (h : McOwnerEquityR ranges b d nT target cancelled (.ok r) sent) :
    ∃ sd : List (List WHand × List Nat), (∀ x ∈ sd, x ∈ showdowns (specRanges ranges) (maskCards b) (maskCards d)) ∧
      4096 ∣ sd.length ∧ r.evalCount = sd.length % 2 ^ 64 ∧
      (∀ p < ranges.length, ∀ x < 52, ∀ y < 52, x ≠ y →
        let u := r.handResults (NUM_HANDS * p + getCardIndex x y)
        u.wins = handWins sd p x y % 2 ^ 64 ∧ u.ties = handTies sd p x y % 2 ^ 64 ∧ u.total = handTotal sd p x y % 2 ^ 64) ∧
      (ranges.length ≤ 8 → (∀ i < 2 ^ ranges.length, r.winsByMask i = winsOf sd (maskPlayers ranges.length i) % 2 ^ 64) ∧
        ∀ p < ranges.length, r.wins p = winsOf sd [p] % 2 ^ 64) := by
  obtain ⟨r', sent', h', e⟩ := C102_approx h
  obtain ⟨sd, h1, _, h2, h3, h4, h5⟩ := C78_counts hwf hb hd h'
  have e1 : r'.counted.evalCount = r.counted.evalCount := by rw [e]
  have e2 : r'.counted.handResults = r.counted.handResults := by rw [e]
  have e3 : r'.counted.winsByMask = r.counted.winsByMask := by rw [e]
  have e4 : r'.counted.wins = r.counted.wins := by rw [e]
  change r'.evalCount = r.evalCount at e1
  change r'.handResults = r.handResults at e2
  change r'.winsByMask = r.winsByMask at e3
  change r'.wins = r.wins at e4
  rw [e1] at h3
  rw [e2] at h4
  rw [e3, e4] at h5
  exact ⟨sd, h1, ⟨_, h2⟩, h3, h4, h5⟩

/-- C102: a caller who only sets the token is a special case. -/
theorem C102_approx_set {res : Except SimulatorError Results} (h : ApproxEquityR ranges b d nT target cancelled res sent) :
    McOwnerEquityR ranges b d nT target cancelled res sent := by
  obtain ⟨p, hp, h⟩ := h
  refine ⟨p, hp, ?_⟩
  cases p with
  | error e => exact h
  | ok s =>
    obtain ⟨r0, flag, w, h1, h2, h3, h4, h5⟩ := h
    exact ⟨r0, flag, w, h1, h2.owner, h3, h4, h5⟩

/-- Aces against kings on a flop, with a token that is set when the calculation starts and cleared before a thread reads it: a release
build gives the complete result of the floating-point model. -/
example : ∃ r sent, OwnerEquityR twoHands flopMask 0 3 true false (.ok r) sent ∧
    ∃ sent', ExactEquityF twoHands flopMask 0 3 false false (.ok r) sent' := by
  have hwf : ∀ r ∈ twoHands, WfRange r := by unfold WfRange twoHands; decide
  have hb : CardMask flopMask := by unfold CardMask; decide
  have h2 : twoHands.length = 2 := by decide
  have h100 : ∀ r ∈ twoHands, ∀ c ∈ r, c.w ≤ 100 := by decide
  have hl : ∀ r ∈ twoHands, r.length ≤ 1326 := by decide
  obtain ⟨r, sent, h⟩ := two_run 3 false
  obtain ⟨r', sent', h', _⟩ := C75_runs hwf hb zero_deck (room_of_prod (by decide)) h
  exact ⟨r', sent', C102_cleared h' true, C102_two_players hwf hb zero_deck h2 h100 hl (C102_cleared h' true)⟩

/-- The simulation with the same hands: three threads count one batch each. -/
example (target : ℚ) : ∃ r sent, McOwnerEquityR twoHands flopMask 0 3 target false (.ok r) sent ∧ r.evalCount = 12288 := by
  have hwf : ∀ r ∈ twoHands, WfRange r := by unfold WfRange twoHands; decide
  have hb : CardMask flopMask := by unfold CardMask; decide
  obtain ⟨r, sent, h, he⟩ := two_approx id 0 3 true
  obtain ⟨r', sent', h', ho, _⟩ := C78_runs hwf hb zero_deck target false h
  exact ⟨r', sent', C102_approx_set h', by rw [ho.evals, he]; rfl⟩

end Pokers
