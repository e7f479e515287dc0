import Verif.Props.Token
import Verif.Props.Stopping
import Verif.Props.Work
/-!
C101: a cancel token that is used again.  A random simulation leaves the token set, and nothing clears it: the next calculation with
the same token stops after the first batch of every thread.  It still returns `Ok`.
-/
namespace Pokers
open Spec Finset CombinedRange

variable {ranges : List (List Combo)} {b d nT : Nat} {cancelled : Bool} {r : Results} {sent : List Nat} {sqrt : ℚ → ℚ} {target : ℚ}
  {token : Bool} {s : Sim} {r0 : Results}

/-- The value of the token is all that `ApproxLeaves` adds. -/
theorem approxLeaves_iff : (∃ token, ApproxLeaves sqrt ranges b d nT target cancelled r sent token) ↔
    ApproxEquity sqrt ranges b d nT target cancelled (.ok r) sent := by
  constructor
  · rintro ⟨_, s, r0, flag, w, h1, h2, h3, h4, rfl, h6, _⟩
    exact ⟨.ok s, h1, r0, flag, w, h2, h3, h4, rfl, h6⟩
  · rintro ⟨p, hp, h⟩
    cases p with
    | error e => exact absurd h.1 (by simp)
    | ok s =>
      obtain ⟨r0, flag, w, h1, h2, h3, h4, h5⟩ := h
      exact ⟨_, s, r0, flag, w, hp, h1, h2, h3, by simpa using h4, h5, rfl⟩

/-- A run in which no thread gives up dealing (which takes 1000 failures in a row). -/
inductive KeptSteps (sqrt : ℚ → ℚ) (target : ℚ) (s : Sim) (nThreads : Nat) (w : McWorld) : McWorld → Prop
  | refl : KeptSteps sqrt target s nThreads w w
  | step {u v : McWorld} : KeptSteps sqrt target s nThreads w u → McStep sqrt target s nThreads u v →
      (∀ t < nThreads, (u.locals t).pc = .start ∨ (u.locals t).pc = .restart → (v.locals t).pc ≠ .final) →
      KeptSteps sqrt target s nThreads w v

theorem single_kept (h : McReady ranges b d s) (h1 : s.combinedRanges.length = 1) {w v : McWorld}
    (hs : McSteps sqrt target s nT w v) : KeptSteps sqrt target s nT w v := by
  induction hs with
  | refl => exact .refl
  | @step u v _ hstep ih =>
    refine .step ih hstep (fun t _ hp => ?_)
    cases hstep with
    | cancel => rcases hp with hp | hp <;> (rw [show (McWorld.locals _ t).pc = _ from hp]; decide)
    | thread t' _ _ ds l g hm =>
      by_cases e : t = t'
      · subst e
        simp only [Function.update_self]
        exact single_start h h1 hp hm
      · simp only [Function.update_of_ne e]
        rcases hp with hp | hp <;> (rw [hp]; decide)

/-- C101: if no thread gives up dealing, then the token is set as soon as one thread comes to its end. -/
theorem C101_left_set {w : McWorld} (h : KeptSteps sqrt target s nT (McWorld.init s r0 cancelled) w) {t : Nat} (ht : t < nT)
    (hd : (w.locals t).pc = .done) : w.shared.stopped = true := by
  have key : ∀ t < nT, (w.locals t).pc = .final ∨ (w.locals t).pc = .done → w.shared.stopped = true := by
    clear hd
    induction h with
    | refl => intro t _ h; rcases h with h | h <;> cases h
    | @step u v _ hstep hk ih =>
      intro t ht hpc
      cases hstep with
      | cancel => rfl
      | thread t' ht' hp' ds l g hm =>
        have he := mcStep_effect hm
        unfold StepEffect at he
        have hst : u.shared.stopped = true → g.stopped = true := by
          intro hs
          split at he
          all_goals first | (rw [he.1]; exact hs) | (rw [he.1]; exact update_stopped hs)
        by_cases e : t = t'
        · subst e
          have hkt := hk t ht
          simp only [Function.update_self] at hpc hkt
          generalize hw : u.locals t = l0 at he hp' hkt
          cases hq : l0.pc with
          | start =>
            rw [hq] at he hkt
            obtain ⟨_, _, _, he⟩ := he
            have := hkt (.inl rfl)
            rcases hpc with h | h
            · exact absurd h this
            · rw [h] at he; rcases he with h | h | h <;> cases h
          | restart =>
            rw [hq] at he hkt
            obtain ⟨_, _, _, he⟩ := he
            have := hkt (.inr rfl)
            rcases hpc with h | h
            · exact absurd h this
            · rw [h] at he; rcases he with h | h | h <;> cases h
          | eval =>
            rw [hq] at he
            obtain ⟨_, he, _⟩ := he
            rcases hpc with h | h <;> (rw [h] at he; rcases he with h | h | h <;> cases h)
          | flush =>
            rw [hq] at he
            obtain ⟨_, he⟩ := he
            rw [he] at hpc
            rcases hpc with h | h <;> cases h
          | check =>
            rw [hq] at he
            obtain ⟨hg, he⟩ := he
            rw [he] at hpc
            show g.stopped = true
            rw [hg]
            by_contra hne
            rw [if_neg hne] at hpc
            rcases hpc with h | h <;> cases h
          | move =>
            rw [hq] at he
            obtain ⟨_, _, _, he⟩ := he
            rcases hpc with h | h <;> (rw [h] at he; rcases he with h | h <;> cases h)
          | final => exact hst (ih t ht (.inl (by rw [hw]; exact hq)))
          | done => exact absurd hq hp'.1
          | panicked => exact absurd hq hp'.2
        · simp only [Function.update_of_ne e] at hpc
          exact hst (ih t ht hpc)
  exact key t ht (.inr hd)

/-- C101: so a simulation whose ranges combine into one always leaves the token set. -/
theorem C101_token (hwf : ∀ r ∈ ranges, WfRange r) (hb : CardMask b) (hd : CardMask d) (hT : 0 < nT)
    (h1 : (fromRanges (ranges.map fun h => removeConflictingCombos h b d)).length = 1)
    (h : ApproxLeaves sqrt ranges b d nT target cancelled r sent token) : token = true := by
  obtain ⟨s, r0, flag, w, hp, h2, h3, h4, _, _, rfl⟩ := h
  have hr : McReady ranges b d s := ⟨hwf, hb, hd, hp⟩
  exact C101_left_set (single_kept hr (by rw [hr.crs_length, h1]) h3) hT (h4 0 hT)

/-- C101: with any ranges, a simulation that leaves the token clear has a thread that gave up dealing. -/
theorem C101_clear {w : McWorld} (hT : 0 < nT) (hd : ∀ t < nT, (w.locals t).pc = .done) (hst : w.shared.stopped = false) :
    ¬ KeptSteps sqrt target s nT (McWorld.init s r0 cancelled) w := by
  intro h
  have := C101_left_set h hT (hd 0 hT)
  rw [hst] at this
  cases this

/-- What a thread may still add to the number of evaluations when the token is set. -/
def roundLeft : McPc → Nat
  | .start | .eval | .flush | .move => 4096
  | _ => 0

theorem first_round (hr : McReady ranges b d s) (h0 : r0.evalCount = 0) {w : McWorld}
    (h : McSteps sqrt target s nT (McWorld.init s r0 true) w) :
    w.shared.stopped = true ∧ (∀ t < nT, (w.locals t).pc ≠ .restart) ∧
    w.shared.results.evalCount + ∑ t ∈ range nT, roundLeft (w.locals t).pc ≤ 4096 * nT := by
  induction h with
  | refl =>
    refine ⟨rfl, fun _ _ h => (by cases h), ?_⟩
    have : ∀ t ∈ range nT, roundLeft ((McWorld.init s r0 true).locals t).pc = 4096 := fun _ _ => rfl
    rw [Finset.sum_congr rfl this, Finset.sum_const, card_range, smul_eq_mul]
    show r0.evalCount + _ ≤ _
    rw [h0]; omega
  | @step u v hsteps hstep ih =>
    obtain ⟨i1, i2, i3⟩ := ih
    obtain ⟨_, _, _, hi⟩ := McInv.steps hr hsteps
    cases hstep with
    | cancel => exact ⟨rfl, i2, i3⟩
    | thread t ht hpc ds l g hm =>
      have he := mcStep_effect hm
      have hc := hi.evalCount ht
      unfold StepEffect at he
      have hi2 := i2 t ht
      have hmem : t ∈ range nT := mem_range.2 ht
      -- one thread changes
      have hsum : ∑ x ∈ range nT, roundLeft ((Function.update u.locals t l) x).pc =
          roundLeft l.pc + ∑ x ∈ (range nT).erase t, roundLeft (u.locals x).pc := by
        rw [← Finset.add_sum_erase _ _ hmem]
        congr 1
        · rw [Function.update_self]
        · exact Finset.sum_congr rfl fun x hx => by rw [Function.update_of_ne (Finset.ne_of_mem_erase hx)]
      rw [← Finset.add_sum_erase _ _ hmem] at i3
      have fin : g.stopped = true → l.pc ≠ .restart → g.results.evalCount + roundLeft l.pc ≤
          u.shared.results.evalCount + roundLeft (u.locals t).pc →
          g.stopped = true ∧ (∀ x < nT, ((Function.update u.locals t l) x).pc ≠ .restart) ∧
          g.results.evalCount + ∑ x ∈ range nT, roundLeft ((Function.update u.locals t l) x).pc ≤ 4096 * nT := by
        intro a1 a2 a3
        refine ⟨a1, fun x hx => ?_, ?_⟩
        · by_cases e : x = t
          · subst e; rw [Function.update_self]; exact a2
          · rw [Function.update_of_ne e]; exact i2 x hx
        · rw [hsum]; omega
      generalize hw : u.locals t = l0 at he hpc hc hi2 fin
      cases hq : l0.pc with
      | start =>
        rw [hq] at he
        obtain ⟨hg, _, _, he⟩ := he
        refine fin (by rw [hg]; exact i1) ?_ ?_
        · rcases he with h | h | h <;> (rw [h]; decide)
        · rw [hg, hq]; rcases he with h | h | h <;> (rw [h]; simp [roundLeft])
      | eval =>
        rw [hq] at he
        obtain ⟨hg, he, _⟩ := he
        refine fin (by rw [hg]; exact i1) ?_ ?_
        · rcases he with h | h | h <;> (rw [h]; decide)
        · rw [hg, hq]; rcases he with h | h | h <;> (rw [h]; simp [roundLeft])
      | move =>
        rw [hq] at he
        obtain ⟨hg, _, _, he⟩ := he
        refine fin (by rw [hg]; exact i1) ?_ ?_
        · rcases he with h | h <;> (rw [h]; decide)
        · rw [hg, hq]; rcases he with h | h <;> (rw [h]; simp [roundLeft])
      | flush =>
        rw [hq] at he hc
        obtain ⟨hg, he⟩ := he
        change l0.stats.evalCount = 4096 at hc
        refine fin (by rw [hg]; exact update_stopped i1) (by rw [he]; simp) ?_
        rw [hg, he, update_evalCount, hc, hq]
        simp [roundLeft]
      | check =>
        rw [hq] at he
        obtain ⟨hg, he⟩ := he
        rw [i1, if_pos rfl] at he
        refine fin (by rw [hg]; exact i1) (by rw [he]; simp) ?_
        rw [hg, he, hq]
        simp [roundLeft]
      | restart => exact absurd hq hi2
      | final =>
        rw [hq] at he hc
        obtain ⟨hg, he⟩ := he
        change l0.stats.evalCount = 0 at hc
        refine fin (by rw [hg]; exact update_stopped i1) (by rw [he]; simp) ?_
        rw [hg, he, update_evalCount, hc, hq]
        simp [roundLeft]
      | done => exact absurd hq hpc.1
      | panicked => exact absurd hq hpc.2

/-- C101: a simulation with a token that is already set evaluates at most one batch of 4096 deals per thread, however small the
target. -/
theorem C101_next_approx (hwf : ∀ r ∈ ranges, WfRange r) (hb : CardMask b) (hd : CardMask d)
    (h : ApproxEquity sqrt ranges b d nT target true (.ok r) sent) : r.evalCount ≤ 4096 * nT := by
  obtain ⟨s, r0, flag, w, hr, hst, he, hs, hdn, rfl, rfl⟩ := approx_world hwf hb hd h
  obtain ⟨_, _, h3⟩ := first_round hr he hs
  rw [(finishResults_counts _ _ _).2.2.2.1]
  exact (Nat.le_add_right _ _).trans h3

/-- C101: two calls with the same token.  After a simulation whose ranges combine into one, an exact calculation with the same token
does not get further than about 10000 evaluations per thread (`K` is the number of boards of a deal, `N` the number of deals); if
there are more deals than that, it does not look at all of them, but it returns `Ok`. -/
theorem C101_exact_after {ranges' : List (List Combo)} {b' d' nT' K N : Nat} {stopped : Bool} {r' : Results} {sent' : List Nat}
    (hwf : ∀ r ∈ ranges, WfRange r) (hb : CardMask b) (hd : CardMask d) (hT : 0 < nT)
    (h1 : (fromRanges (ranges.map fun h => removeConflictingCombos h b d)).length = 1)
    (h : ApproxLeaves sqrt ranges b d nT target cancelled r sent token)
    (hwf' : ∀ r ∈ ranges', WfRange r) (hb' : CardMask b') (hd' : CardMask d') (hK : boardsPerDeal b' d' ranges'.length = K)
    (hN : (deals (specRanges ranges') (maskCards b' ++ maskCards d')).length = N)
    (h' : ExactEquity ranges' b' d' nT' token stopped (.ok r') sent') :
    r'.evalCount ≤ nT' * (9999 + K) ∧
    (0 < K → nT' * (9999 + K) < N → ¬ ∃ nT₂ c₂ sent₂, 0 < nT₂ ∧ ExactEquity ranges' b' d' nT₂ c₂ false (.ok r') sent₂) := by
  rw [C101_token hwf hb hd hT h1 h] at h'
  have hle := C95_cancelled hwf' hb' hd' h'
  rw [hK] at hle
  refine ⟨hle, fun hB hlt => ?_⟩
  rintro ⟨nT₂, c₂, sent₂, hT₂, h2⟩
  have := (C95_evals_ge hwf' hb' hd' hT₂ h2).1 (hK ▸ hB)
  omega

/-- C101: and a simulation with the same token evaluates at most one batch per thread. -/
theorem C101_approx_after {ranges' : List (List Combo)} {b' d' nT' : Nat} {sqrt' : ℚ → ℚ} {target' : ℚ} {r' : Results}
    {sent' : List Nat} (hwf : ∀ r ∈ ranges, WfRange r) (hb : CardMask b) (hd : CardMask d) (hT : 0 < nT)
    (h1 : (fromRanges (ranges.map fun h => removeConflictingCombos h b d)).length = 1)
    (h : ApproxLeaves sqrt ranges b d nT target cancelled r sent token)
    (hwf' : ∀ r ∈ ranges', WfRange r) (hb' : CardMask b') (hd' : CardMask d')
    (h' : ApproxEquity sqrt' ranges' b' d' nT' target' token (.ok r') sent') : r'.evalCount ≤ 4096 * nT' := by
  rw [C101_token hwf hb hd hT h1 h] at h'
  exact C101_next_approx hwf' hb' hd' h'

/-- C101: an exact calculation leaves the token as it is. -/
theorem C101_exact_keeps {s : Sim} {ds : List DividerU64} {total size : Nat} {w : World} {t : Nat} :
    (threadStep s ds total size (w.locals t) w.shared).2.stopped = w.shared.stopped := by
  unfold threadStep
  split
  · dsimp only
    split <;> rfl
  · split
    · rfl
    · dsimp only
      split <;> rfl
  · rfl
  · split <;> rfl
  · rfl
  · rfl
  · rfl

/-- Aces against kings on a flop: a simulation with three threads and the target 1/100 leaves the token set, and a second one with the
same token and a target that would need many batches ends after one batch per thread. -/
example (sqrt : ℚ → ℚ) (tiny : ℚ) : ∃ r sent token r' sent', ApproxLeaves sqrt twoHands flopMask 0 3 (1 / 100) false r sent token ∧
    token = true ∧ ApproxEquity sqrt twoHands flopMask 0 3 tiny token (.ok r') sent' ∧ r'.evalCount = 12288 := by
  obtain ⟨r, sent, h, _⟩ := two_approx sqrt (1 / 100) 3 false
  obtain ⟨token, h⟩ := approxLeaves_iff.2 h
  have ht : token = true := C101_token (by unfold WfRange twoHands; decide) (by unfold CardMask; decide) (by unfold CardMask; decide)
    (by decide) (by decide +kernel) h
  obtain ⟨r', sent', h', e⟩ := two_approx sqrt tiny 3 true
  exact ⟨r, sent, token, r', sent', h, ht, by rw [ht]; exact h', e⟩

/-- The hands with two cards from `a` to `a + n - 1`. -/
def span (a n : Nat) : List Combo :=
  (List.range n).flatMap fun i => (List.range i).map fun j => ⟨a + i, a + j, 1⟩

/-- All pairs of cards from 0 to 23 against all pairs from 24 to 43, on a board of five other cards. -/
def spans : List (List Combo) := [span 0 24, span 24 20]
def spansBoard : Nat := 2 ^ 49 - 2 ^ 44

theorem mem_span {a n : Nat} {c : Combo} (h : c ∈ span a n) : a ≤ c.c1 ∧ c.c1 < a + n ∧ a ≤ c.c2 ∧ c.c2 < c.c1 := by
  unfold span at h
  obtain ⟨i, hi, h⟩ := List.mem_flatMap.1 h
  obtain ⟨j, hj, rfl⟩ := List.mem_map.1 h
  rw [List.mem_range] at hi hj
  dsimp only
  omega

theorem spans_wf : ∀ r ∈ spans, WfRange r := by
  intro r hr c hc
  simp only [spans, List.mem_cons, List.not_mem_nil, or_false] at hr
  rcases hr with rfl | rfl <;> (have := mem_span hc; omega)

theorem pairs_length (A B : List WHand) : (choices [A, B]).length = A.length * B.length := by
  induction A with
  | nil => simp [choices]
  | cons x A ih =>
    simp only [choices, List.flatMap_cons, List.length_append, List.length_map, List.length_cons] at ih ⊢
    rw [ih]
    have : (B.flatMap fun h => List.map (fun l => h :: l) [[]]).length = B.length := by
      induction B with
      | nil => rfl
      | cons y B _ => simp [List.length_flatMap]
    rw [this, Nat.add_mul, Nat.one_mul, Nat.add_comm]

theorem spans_deals : (deals (specRanges spans) (maskCards spansBoard ++ maskCards 0)).length = 52440 := by
  have hB : maskCards spansBoard ++ maskCards 0 = [44, 45, 46, 47, 48] := by decide +kernel
  have hn : (choices (specRanges spans)).length = 52440 := by
    show (choices [(span 0 24).map toHole, (span 24 20).map toHole]).length = _
    rw [pairs_length]
    decide +kernel
  unfold deals
  rw [hB, List.filter_eq_self.2]
  · exact hn
  · intro dd hdd
    rw [decide_eq_true_iff]
    simp only [specRanges, spans, List.map_cons, List.map_nil, choices, List.mem_flatMap, List.mem_map, List.mem_singleton] at hdd
    obtain ⟨_, ⟨x, hx, rfl⟩, _, ⟨_, ⟨y, hy, rfl⟩, _, rfl, rfl⟩, rfl⟩ := hdd
    have h1 := mem_span hx
    have h2 := mem_span hy
    simp only [Spec.Legal, dealt, toHole, cardsOf, List.flatMap_cons, List.flatMap_nil, List.cons_append, List.nil_append, List.append_nil,
      List.nodup_cons, List.mem_cons, List.not_mem_nil, or_false, not_or, List.nodup_nil, not_false_eq_true, and_true, forall_eq_or_imp, forall_eq]
    omega

theorem spans_run (nT : Nat) (token : Bool) : ∃ r sent, ExactEquity spans spansBoard 0 nT token token (.ok r) sent := by
  have hm : CardMask spansBoard := by unfold CardMask; decide
  have hz : CardMask 0 := by unfold CardMask; decide
  exact C48_run_exists spans_wf hm hz (by decide +kernel)
    (fun e => by have := spans_deals; rw [e] at this; cases this) (by decide +kernel) nT token

theorem spans_boards : boardsPerDeal spansBoard 0 spans.length = 1 := by
  show boardsPerDeal spansBoard 0 2 = 1
  unfold boardsPerDeal
  decide +kernel

attribute [local irreducible] ExactEquity in
/-- There are 52440 deals, but with at most five threads and the token that the simulation above has left behind, the exact calculation
does not evaluate all of them. -/
example (sqrt : ℚ → ℚ) (n : Nat) (h5 : n ≤ 5) : ∃ r sent token r' sent',
    ApproxLeaves sqrt twoHands flopMask 0 3 (1 / 100) false r sent token ∧
    ExactEquity spans spansBoard 0 n token token (.ok r') sent' ∧ r'.evalCount ≤ n * 10000 ∧
    ¬ ∃ nT₂ c₂ sent₂, 0 < nT₂ ∧ ExactEquity spans spansBoard 0 nT₂ c₂ false (.ok r') sent₂ := by
  obtain ⟨r, sent, h, _⟩ := two_approx sqrt (1 / 100) 3 false
  obtain ⟨token, h⟩ := approxLeaves_iff.2 h
  obtain ⟨r', sent', h'⟩ := spans_run n token
  have hm : CardMask spansBoard := by unfold CardMask; decide
  have hz : CardMask 0 := by unfold CardMask; decide
  have h2 : ∀ r ∈ twoHands, WfRange r := by unfold WfRange twoHands; decide
  have h3 : CardMask flopMask := by unfold CardMask; decide
  have h4 : (fromRanges (twoHands.map fun h => removeConflictingCombos h flopMask 0)).length = 1 := by decide +kernel
  have e := C101_exact_after h2 h3 hz (by decide : 0 < 3) h4 h spans_wf hm hz spans_boards spans_deals h'
  obtain ⟨e1, e2⟩ := e
  exact ⟨r, sent, token, r', sent', h, h', by omega, e2 (by omega) (by omega)⟩

end Pokers
