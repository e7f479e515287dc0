import Verif.Props.Laws
import Verif.Props.MonteCarlo
import Verif.Props.Threads
import Verif.Proofs.TokenMc
/-!
C100: a caller who writes to the cancel token at will.  The other theorems about cancellation are about a caller who only sets the
token.  A caller who clears it again gets nothing else: every result is one of a calculation in which the token is set at most once,
at the end; and a calculation in which no thread read a set token is complete, whatever was stored in between.
-/
namespace Pokers
open Spec

variable {ranges : List (List Combo)} {b d nT : Nat} {cancelled seen : Bool} {r : Results} {sent : List Nat}

/-- C100: whatever the caller stores in the token, the result is also the result of a calculation whose token is clear at the start
and set later only if a thread found it set.  So every theorem about the results of cancelled calculations holds here too. -/
theorem C100_exact (h : OwnerEquity ranges b d nT cancelled seen (.ok r) sent) :
    ∃ sent', ExactEquity ranges b d nT false seen (.ok r) sent' := by
  unfold OwnerEquity at h
  split at h
  · exact absurd h.1 (by simp)
  · rename_i s hok
    obtain ⟨r0, flag, ds, total, size, k, w, h1, h2, h3, h4, h5, h6, h7, _⟩ := h
    have hx : s.calcExact = true := by rw [(prepareExact_ok hok).sim]; rfl
    obtain ⟨u, u1, u2, u3, u4⟩ := h5.finished hx h6
    refine ⟨u.shared.sent, ?_⟩
    unfold ExactEquity
    rw [hok]
    exact ⟨r0, flag, ds, total, size, u, h1, h2, h3, h4, u1, u2, by rw [u3]; exact h7, rfl, u4.symm⟩

/-- C100: the token plays no part in the errors. -/
theorem C100_errors {e : SimulatorError} :
    OwnerEquity ranges b d nT cancelled seen (.error e) sent ↔ prepareExact ranges b d = .error e ∧ sent = [] := by
  unfold OwnerEquity
  split
  · rename_i e' he
    rw [he]
    constructor
    · rintro ⟨h1, h2⟩
      exact ⟨by injection h1 with h1; rw [h1], h2⟩
    · rintro ⟨h1, h2⟩
      exact ⟨by injection h1 with h1; rw [h1], h2⟩
  · rename_i s hok
    rw [hok]
    constructor
    · rintro ⟨_, _, _, _, _, _, _, _, _, _, _, _, _, h, _⟩
      cases h
    · rintro ⟨h, _⟩
      cases h

/-- C100: if no thread found the token set, the result is that of a calculation that was never cancelled. -/
theorem C100_unseen (h : OwnerEquity ranges b d nT cancelled false (.ok r) sent) : Delivers ranges b d nT r :=
  .inl ⟨false, C100_exact h⟩

/-- C100: in particular it agrees with every such calculation. -/
theorem C100_unseen_same {nT' : Nat} {c : Bool} {r' : Results} {sent' : List Nat} (hwf : ∀ r ∈ ranges, WfRange r) (hb : CardMask b)
    (hd : CardMask d) (hT : 0 < nT) (hT' : 0 < nT') (h : OwnerEquity ranges b d nT cancelled false (.ok r) sent)
    (h' : ExactEquity ranges b d nT' c false (.ok r') sent') :
    (∀ p < ranges.length, r.wins p = r'.wins p) ∧ (∀ i < 2 ^ ranges.length, r.winsByMask i = r'.winsByMask i) ∧
    (∀ k < NUM_HANDS * ranges.length, (r.handResults k).wins = (r'.handResults k).wins ∧
      (r.handResults k).ties = (r'.handResults k).ties ∧ (r.handResults k).total = (r'.handResults k).total ∧
      (r.handResults k).correctedTies = (r'.handResults k).correctedTies) ∧
    r.evalCount = r'.evalCount := by
  obtain ⟨_, h⟩ := C100_exact h
  exact C29_schedule_independent hwf hb hd hT hT' h h'

/-- C100: every schedule ends, however often the caller writes to the token: the number of steps of the threads is bounded; and if
the last reservation does not overflow no thread panics. -/
theorem C100_terminates {s : Sim} {ds : List DividerU64} {total size k : Nat} {r0 : Results} {w : World}
    (hr : Ready ranges b d s ds total size) (h : OwnerSteps s ds total size nT (World.init s r0 cancelled) seen k w) :
    k ≤ 4 * total + 6 * nT ∧ (total + size < 2 ^ 64 → ∀ t, (w.locals t).pc ≠ .panicked) := by
  have hx : s.calcExact = true := hr.fields.2.2.2.2.1
  obtain ⟨p, j, v, hv, hl, _, hk, _⟩ := h.lags hx
  constructor
  · have h1 := hv.bound hr.processes hr.size_pos
    have h2 : ∑ t ∈ Finset.range nT, p t ≤ ∑ _t ∈ Finset.range nT, 2 := Finset.sum_le_sum fun t _ => hl.le t
    rw [Finset.sum_const, Finset.card_range, smul_eq_mul] at h2
    omega
  · intro hov t hp
    have hnp := hv.steps.no_panic hr.processes hr.size_pos hov t
    have hle := hl.le t
    rcases (by omega : p t = 0 ∨ p t = 1 ∨ p t = 2) with h | h | h
    · rw [hl.live t h] at hp; exact hnp hp
    · rw [hl.last t h] at hp; cases hp
    · rw [hl.gone t h] at hp; cases hp

/-- C100: a caller who only sets the token is a special case. -/
theorem C100_set {stopped : Bool} (h : ExactEquity ranges b d nT cancelled stopped (.ok r) sent) :
    ∃ seen, OwnerEquity ranges b d nT cancelled seen (.ok r) sent := by
  unfold ExactEquity at h
  unfold OwnerEquity
  split at h
  · exact absurd h.1 (by simp)
  · rename_i s hok
    obtain ⟨r0, flag, ds, total, size, w, h1, h2, h3, h4, h5, h6, h7, h8, _⟩ := h
    obtain ⟨seen, k, h5⟩ := h5.owner
    rw [hok]
    exact ⟨seen, r0, flag, ds, total, size, k, w, h1, h2, h3, h4, h5, h6, h7, h8⟩

/-- Steps after which the token is clear, from a state with a set token that the caller clears first. -/
theorem Steps.cleared {s : Sim} {ds : List DividerU64} {total size : Nat} {r0 : Results} {w : World}
    (h : Steps s ds total size nT (World.init s r0 false) w) (hst : w.shared.stopped = false) (x : Bool) :
    ∃ k, OwnerSteps s ds total size nT (World.init s r0 x) false k w := by
  induction h with
  | refl => exact ⟨_, .step .refl (.store (World.init s r0 x) false)⟩
  | @step u _ hs hstep ih =>
    cases hstep with
    | thread t ht hpc =>
      have hu : u.shared.stopped = false := by
        by_contra hne
        have := (Steps.step .refl (.thread u t ht hpc) : Steps s ds total size nT u _).stays_stopped (by simpa using hne)
        rw [hst] at this
        cases this
      obtain ⟨k, ih⟩ := ih hu
      have h2 := OwnerSteps.step ih (.thread u t ht hpc)
      rw [hu, Bool.and_false, Bool.or_false] at h2
      exact ⟨_, h2⟩
    | cancel => cases hst

/-- C100: a token that is set before the calculation and cleared before a thread reads it does nothing: every complete result is
possible. -/
theorem C100_cleared (h : ExactEquity ranges b d nT false false (.ok r) sent) (x : Bool) :
    OwnerEquity ranges b d nT x false (.ok r) sent := by
  unfold ExactEquity at h
  unfold OwnerEquity
  split at h
  · exact absurd h.1 (by simp)
  · rename_i s hok
    obtain ⟨r0, flag, ds, total, size, w, h1, h2, h3, h4, h5, h6, h7, h8, h9⟩ := h
    obtain ⟨k, h5⟩ := h5.cleared h9.symm x
    rw [hok]
    exact ⟨r0, flag, ds, total, size, k, w, h1, h2, h3, h4, h5, h6, h7, h8⟩

/-- C100: the random simulation.  Whatever the caller stores in the token, what has been counted can also be counted by a simulation
that never reaches its target and whose token is set only by the caller; only the sums over the batches and the standard deviation
may differ. -/
theorem C100_approx {sqrt : ℚ → ℚ} {target : ℚ} (h : McOwnerEquity sqrt ranges b d nT target cancelled (.ok r) sent) :
    ∃ r' sent', ApproxEquity (fun _ => 0) ranges b d nT 0 false (.ok r') sent' ∧ r'.counted = r.counted := by
  obtain ⟨p, hp, h⟩ := h
  cases p with
  | error e => exact absurd h.1 (by simp)
  | ok s =>
    obtain ⟨r0, flag, w, h1, h2, h3, h4, _⟩ := h
    have hx : s.calcExact = false := by
      rcases prepareApprox_iff.1 hp with ⟨e, _, he⟩ | ⟨s0, _, crs, _, he⟩
      · cases he
      · cases he; rfl
    obtain ⟨u, u1, u2, u3⟩ := h2.finished hx h3
    have hr : r = finishResults s flag w.shared.results := by simpa using h4
    refine ⟨_, _, ⟨.ok s, hp, r0, flag, u, h1, u1, u2, rfl, rfl⟩, ?_⟩
    rw [hr, finishResults_counted, finishResults_counted, u3]

/-- C100: so, as in `C41_counts`, what is counted is a list of legal showdowns. -/
theorem C100_approx_counts {sqrt : ℚ → ℚ} {target : ℚ} (hwf : ∀ r ∈ ranges, WfRange r) (hb : CardMask b) (hd : CardMask d)
    (h : McOwnerEquity sqrt ranges b d nT target cancelled (.ok r) sent) :
    ∃ sd : List (List WHand × List Nat), (∀ x ∈ sd, x ∈ showdowns (specRanges ranges) (maskCards b) (maskCards d)) ∧
      r.evalCount = sd.length ∧
      (∀ p < ranges.length, ∀ x < 52, ∀ y < 52, x ≠ y →
        let u := r.handResults (NUM_HANDS * p + getCardIndex x y)
        u.wins = handWins sd p x y ∧ u.ties = handTies sd p x y ∧ u.total = handTotal sd p x y ∧
        u.correctedTies = handShares sd p x y) ∧
      (ranges.length ≤ 8 → (∀ i < 2 ^ ranges.length, r.winsByMask i = winsOf sd (maskPlayers ranges.length i)) ∧
        ∀ p < ranges.length, r.wins p = winsOf sd [p]) := by
  obtain ⟨r', _, h', e⟩ := C100_approx h
  obtain ⟨sd, h1, h2, h3, h4⟩ := C41_counts hwf hb hd h'
  have e1 : r'.counted.evalCount = r.counted.evalCount := by rw [e]
  have e2 : r'.counted.handResults = r.counted.handResults := by rw [e]
  have e3 : r'.counted.winsByMask = r.counted.winsByMask := by rw [e]
  have e4 : r'.counted.wins = r.counted.wins := by rw [e]
  change r'.evalCount = r.evalCount at e1
  change r'.handResults = r.handResults at e2
  change r'.winsByMask = r.winsByMask at e3
  change r'.wins = r.wins at e4
  rw [e1] at h2
  rw [e2] at h3
  rw [e3, e4] at h4
  exact ⟨sd, h1, h2, h3, h4⟩

/-- C100: a caller who only sets the token is a special case. -/
theorem C100_approx_set {sqrt : ℚ → ℚ} {target : ℚ} {res : Except SimulatorError Results}
    (h : ApproxEquity sqrt ranges b d nT target cancelled res sent) : McOwnerEquity sqrt ranges b d nT target cancelled res sent := by
  obtain ⟨p, hp, h⟩ := h
  refine ⟨p, hp, ?_⟩
  cases p with
  | error e => exact h
  | ok s =>
    obtain ⟨r0, flag, w, h1, h2, h3, h4, h5⟩ := h
    exact ⟨r0, flag, w, h1, h2.owner, h3, h4, h5⟩

/-- Aces against kings on a flop, with a token that is set when the calculation starts and cleared before a thread reads it: the
result is complete. -/
example (nT : Nat) : ∃ r sent, OwnerEquity twoHands flopMask 0 nT true false (.ok r) sent ∧ Delivers twoHands flopMask 0 nT r := by
  obtain ⟨r, sent, h⟩ := two_run nT false
  exact ⟨r, sent, C100_cleared h true, C100_unseen (C100_cleared h true)⟩

/-- A thread that finds the token set ends even though the caller clears the token right after: a state of the calculation in which
thread 0 has read the token and the token is clear. -/
example (s : Sim) (ds : List DividerU64) (total size : Nat) (w : World) (hc : (w.locals 0).pc = .check) (hd : (w.locals 1).pc = .check) :
    ∃ v, OwnerSteps s ds total size 2 w true 2 v ∧ (v.locals 0).pc = .final ∧ (v.locals 1).pc ≠ .final ∧
      v.shared.results = w.shared.results := by
  have s1 : OwnerSteps s ds total size 2 w false 0 { w with shared := { w.shared with stopped := true } } :=
    .step .refl (.store w true)
  have s2 := OwnerSteps.step s1 (.thread _ 0 (by decide) (by simp only [hc]; decide))
  simp only [hc, threadStep, if_true] at s2
  have s3 := OwnerSteps.step s2 (.store _ false)
  have s4 := OwnerSteps.step s3 (.thread _ 1 (by decide) (by simp only [Function.update_of_ne (by decide : (1 : Nat) ≠ 0), hd]; decide))
  simp only [threadStep, Function.update_of_ne (by decide : (1 : Nat) ≠ 0), hd] at s4
  refine ⟨_, s4, ?_, ?_, rfl⟩
  · simp only [Function.update_of_ne (by decide : (0 : Nat) ≠ 1), Function.update_self]
  · simp only [Function.update_self, Local.advance, Bool.false_eq_true, if_false]
    split <;> decide

end Pokers
