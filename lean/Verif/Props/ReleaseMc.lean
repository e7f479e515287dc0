import Verif.Proofs.ReleaseMcSame
import Verif.Props.Release
import Verif.Props.Stopping
import Verif.Props.OverflowMc
/-!
# The random simulation in a release build (C78)

`ApproxEquityR` is `approx_equity` without the overflow checks: the `u64` counters are kept modulo `2 ^ 64`, and the numbers are rounded as
in the floating-point model.
-/
namespace Pokers
open Spec CombinedRange
open Finset (range)

variable {ranges : List (List Combo)} {b d nT : Nat} {target : ℚ} {cancelled : Bool} {r : Results} {sent : List Nat}

theorem McReady.approximate {s : Sim} (hr : McReady ranges b d s) : s.calcExact = false := by
  obtain ⟨s0, _, _, e⟩ := hr.exact
  rw [e]

/-! ## Every run belongs to a run of the exact model -/

/-- C78: every run of the release build belongs to a run of the exact model (in which the calculation is stopped from outside where the
release build stops by itself), whose counters it has modulo `2 ^ 64`. -/
theorem C78_follows (hwf : ∀ r ∈ ranges, WfRange r) (hb : CardMask b) (hd : CardMask d) {r' : Results} {sent' : List Nat}
    (h : ApproxEquityR ranges b d nT target cancelled (.ok r') sent') :
    ∃ r sent, ApproxEquity (fun _ => 0) ranges b d nT 0 cancelled (.ok r) sent ∧ OutMod ranges.length r r' ∧ sent'.length = sent.length := by
  obtain ⟨p, hp, h⟩ := h
  cases p with
  | error e => cases h.1
  | ok s =>
    obtain ⟨r0, flag, w', h1, h2, h3, h4, h5⟩ := h
    have hr : McReady ranges b d s := ⟨hwf, hb, hd, hp⟩
    obtain ⟨w, hw, hc⟩ := McStepsR.follow hr.approximate (init_mcWorldMod h1 cancelled) h2
    have hdone : ∀ t < nT, (w.locals t).pc = .done := fun t ht => by rw [← (hc.locals t).pc]; exact h3 t ht
    refine ⟨_, _, ⟨_, hp, r0, flag, w, h1, hw, hdone, rfl, rfl⟩, ?_, by rw [h5, hc.shared.sent]⟩
    injection h4 with h4
    rw [h4, ← hr.fields.1]
    exact hc.shared.results.out flag

/-- C78: so the results are the counts over a list of legal showdowns modulo `2 ^ 64`: of every hand, and up to eight players of the winner
masks and the players.  The number of showdowns is 4096 times the number of messages above one per thread. -/
theorem C78_counts (hwf : ∀ r ∈ ranges, WfRange r) (hb : CardMask b) (hd : CardMask d)
    (h : ApproxEquityR ranges b d nT target cancelled (.ok r) sent) :
    ∃ sd : List (List WHand × List Nat), (∀ x ∈ sd, x ∈ showdowns (specRanges ranges) (maskCards b) (maskCards d)) ∧
      nT ≤ sent.length ∧ sd.length = 4096 * (sent.length - nT) ∧ r.evalCount = sd.length % 2 ^ 64 ∧
      (∀ p < ranges.length, ∀ x < 52, ∀ y < 52, x ≠ y →
        let u := r.handResults (NUM_HANDS * p + getCardIndex x y)
        u.wins = handWins sd p x y % 2 ^ 64 ∧ u.ties = handTies sd p x y % 2 ^ 64 ∧ u.total = handTotal sd p x y % 2 ^ 64) ∧
      (ranges.length ≤ 8 → (∀ i < 2 ^ ranges.length, r.winsByMask i = winsOf sd (maskPlayers ranges.length i) % 2 ^ 64) ∧
        ∀ p < ranges.length, r.wins p = winsOf sd [p] % 2 ^ 64) := by
  obtain ⟨r1, sent1, h1, ho, hs⟩ := C78_follows hwf hb hd h
  obtain ⟨sd, g1, g2, g3, g4⟩ := C41_counts hwf hb hd h1
  obtain ⟨m1, m2⟩ := C53_multiple hwf hb hd h1
  refine ⟨sd, g1, by omega, by rw [← g2, m2, hs], by rw [ho.evals, g2], fun p hp x hx y hy hxy => ?_, fun h8 => ?_⟩
  · obtain ⟨f1, f2, f3⟩ := ho.hands (NUM_HANDS * p + getCardIndex x y)
    obtain ⟨k1, k2, k3, _⟩ := g3 p hp x hx y hy hxy
    intro u
    exact ⟨by rw [← k1]; exact f1, by rw [← k2]; exact f2, by rw [← k3]; exact f3⟩
  · obtain ⟨k1, k2⟩ := g4 h8
    exact ⟨fun i hi => by rw [ho.masks, k1 i hi], fun p hp => by rw [ho.wins, k2 p hp]⟩

/-- C78: every cancelled run of the exact model has such a run of the release build, which may also be cancelled during the calculation. -/
theorem C78_runs (hwf : ∀ r ∈ ranges, WfRange r) (hb : CardMask b) (hd : CardMask d) (target : ℚ) (cancelled : Bool) {sqrt : ℚ → ℚ} {tgt : ℚ}
    (h : ApproxEquity sqrt ranges b d nT tgt true (.ok r) sent) :
    ∃ r' sent', ApproxEquityR ranges b d nT target cancelled (.ok r') sent' ∧ OutMod ranges.length r r' ∧ sent'.length = sent.length := by
  obtain ⟨p, hp, h⟩ := h
  cases p with
  | error e => cases h.1
  | ok s =>
    obtain ⟨r0, flag, w, h1, h2, h3, h4, h5⟩ := h
    have hr : McReady ranges b d s := ⟨hwf, hb, hd, hp⟩
    obtain ⟨w', g1, g2, _⟩ := McSteps.followR hr.approximate target (init_mcWorldMod h1 true) rfl h2
    have hc : McStepsR target s nT (McWorld.init s r0 cancelled) w' :=
      (McStepsR.step .refl (McStepR.cancel (McWorld.init s r0 cancelled))).trans g1
    refine ⟨_, _, ⟨_, hp, r0, flag, w', h1, hc, fun t ht => by rw [(g2.locals t).pc]; exact h3 t ht, rfl, rfl⟩, ?_, by rw [h5, g2.shared.sent]⟩
    injection h4 with h4
    rw [h4, ← hr.fields.1]
    exact g2.shared.results.out flag

/-- C78: the errors are those of the exact model. -/
theorem C78_errors (sqrt : ℚ → ℚ) (tgt : ℚ) (e : SimulatorError) :
    ApproxEquityR ranges b d nT target cancelled (.error e) sent ↔ ApproxEquity sqrt ranges b d nT tgt cancelled (.error e) sent := by
  constructor
  · rintro ⟨p, hp, h⟩
    cases p with
    | error e' => exact ⟨_, hp, h⟩
    | ok s => obtain ⟨_, _, _, _, _, _, h, _⟩ := h; cases h
  · rintro ⟨p, hp, h⟩
    cases p with
    | error e' => exact ⟨_, hp, h⟩
    | ok s => obtain ⟨_, _, _, _, _, _, h, _⟩ := h; cases h

/-! ## Without overflow -/

theorem done_evals {sqrt : ℚ → ℚ} {tgt : ℚ} {s : Sim} (hr : McReady ranges b d s) {r0 : Results} {flag : Nat}
    (hst : startResults s = some (r0, flag)) {w : McWorld} (hs : McSteps sqrt tgt s nT (McWorld.init s r0 cancelled) w)
    (hdone : ∀ t < nT, (w.locals t).pc = .done) : w.evals nT = 4096 * (w.shared.sent.length - nT) := by
  obtain ⟨hist, Dr, Dl, hI⟩ := McInv.steps hr hs
  obtain ⟨_, m⟩ := C53_multiple hr.wf hr.boardMask hr.deadMask (⟨_, hr.ok, r0, flag, w, hst, hs, hdone, rfl, rfl⟩ :
    ApproxEquity sqrt ranges b d nT tgt cancelled (.ok (finishResults s flag w.shared.results)) w.shared.sent)
  rw [(finishResults_counts s flag w.shared.results).2.2.2.1] at m
  unfold McWorld.evals
  rw [Finset.sum_eq_zero fun t ht => ?_, Nat.add_zero, m]
  have ht := Finset.mem_range.1 ht
  have e2 : (w.locals t).stats.evalCount = (Dl t).length := congrArg (fun x : FT => x.2) (hI.loc t ht)
  have hl := hI.len t ht
  rw [hdone t ht] at hl
  rw [e2]
  exact hl

/-- C78: with hands of weights up to 100, as long as the number of evaluations times `100` for each player leaves room for one more
evaluation below `2 ^ 64`, the runs of the release build are those of the floating-point model: its results are the same to the last bit, and
the theorems about that model (C63, C70, C72) hold for the release build. -/
theorem C78_no_overflow (hwf : ∀ r ∈ ranges, WfRange r) (hb : CardMask b) (hd : CardMask d) (h100 : ∀ r ∈ ranges, ∀ c ∈ r, c.w ≤ 100)
    (hroom : (4096 * (sent.length - nT) + 1) * 100 ^ ranges.length < 2 ^ 64) :
    ApproxEquityR ranges b d nT target cancelled (.ok r) sent ↔ ApproxEquityF devF (progF target) ranges b d nT target cancelled (.ok r) sent := by
  constructor
  · rintro ⟨p, hp, h⟩
    refine ⟨p, hp, ?_⟩
    cases p with
    | error e => exact h
    | ok s =>
      obtain ⟨r0, flag, w', h1, h2, h3, h4, h5⟩ := h
      have hr : McReady ranges b d s := ⟨hwf, hb, hd, hp⟩
      obtain ⟨w, g1, g2, g3⟩ := h2.float hr h100 h1
      have hdone : ∀ t < nT, (w.locals t).pc = .done := fun t ht => by rw [← (g2.locals t).pc]; exact h3 t ht
      rw [h5, g2.shared.sent, ← done_evals hr h1 g1 hdone] at hroom
      exact ⟨r0, flag, w', h1, (g3 hroom).1, h3, h4, h5⟩
  · rintro ⟨p, hp, h⟩
    refine ⟨p, hp, ?_⟩
    cases p with
    | error e => exact h
    | ok s =>
      obtain ⟨r0, flag, w', h1, h2, h3, h4, h5⟩ := h
      have hr : McReady ranges b d s := ⟨hwf, hb, hd, hp⟩
      obtain ⟨w, g1, g2, g3⟩ := h2.release hr h100 h1
      have hdone : ∀ t < nT, (w.locals t).pc = .done := fun t ht => by rw [← (g2.locals t).pc]; exact h3 t ht
      rw [h5, g2.shared.sent, ← done_evals hr h1 g1 hdone] at hroom
      exact ⟨r0, flag, w', h1, g3 hroom, h3, h4, h5⟩

/-- C78: two players: up to 450 thousand million batches. -/
theorem C78_two_players (hwf : ∀ r ∈ ranges, WfRange r) (hb : CardMask b) (hd : CardMask d) (h100 : ∀ r ∈ ranges, ∀ c ∈ r, c.w ≤ 100)
    (h2 : ranges.length = 2) (hroom : sent.length - nT ≤ 450000000000) :
    ApproxEquityR ranges b d nT target cancelled (.ok r) sent ↔ ApproxEquityF devF (progF target) ranges b d nT target cancelled (.ok r) sent := by
  apply C78_no_overflow hwf hb hd h100
  rw [h2]
  omega

/-! ## Ties and equities -/

theorem Calc.no_ties {sqrt : ℚ → ℚ} {ex : Bool} {s : Sim} {flag : Nat} {r0 : Results} {hist : List (Batch × HandStats)}
    {sd : List (List WHand × List Nat)} (h : Calc sqrt ex ranges b d r s flag r0 hist sd)
    (hsole : ∀ x ∈ showdowns (specRanges ranges) (maskCards b) (maskCards d), ∃ p < 8, winners x.2 x.1 = [p]) {p : Nat} (hp : p < ranges.length) :
    r.ties p = 0 := by
  rw [h.ties (by rw [h.players]; exact hp), h.players]
  apply List.sum_eq_zero
  intro y hy
  obtain ⟨x, hx, rfl⟩ := List.mem_map.1 hy
  apply Finset.sum_eq_zero
  intro i hi
  unfold maskTies
  split
  · rename_i hc
    obtain ⟨sd', k1, k2⟩ := h.batches x hx
    have hz : x.1.winsByMask i = 0 := by
      rw [k2 i (Finset.mem_range.1 hi)]
      unfold weightOf
      rw [List.filter_eq_nil_iff.2]
      · rfl
      · intro z hz
        obtain ⟨q, hq, e⟩ := hsole z (k1 z hz)
        simp only [decide_eq_true_eq]
        rw [e]
        intro hm
        apply hc.2
        rw [← hm]
        have key : ∀ q < 8, countOnes (u8Mask [q]) = 1 := by decide
        exact key q hq
    unfold tieShare
    rw [hz]
    simp
  · rfl

/-- C78: if no showdown is a tie the reported equities come from the wins modulo `2 ^ 64`. -/
theorem C78_no_ties (hwf : ∀ r ∈ ranges, WfRange r) (hb : CardMask b) (hd : CardMask d)
    (hsole : ∀ x ∈ showdowns (specRanges ranges) (maskCards b) (maskCards d), ∃ p < 8, winners x.2 x.1 = [p])
    (h : ApproxEquityR ranges b d nT target cancelled (.ok r) sent) :
    r.equities = roundedShares ((List.range ranges.length).map r.wins) ∧
    ∃ sd : List (List WHand × List Nat), (∀ x ∈ sd, x ∈ showdowns (specRanges ranges) (maskCards b) (maskCards d)) ∧
      sd.length = 4096 * (sent.length - nT) ∧
      ∀ p < ranges.length, r.wins p = (if p < 8 then winsOf sd [p] else 0) % 2 ^ 64 := by
  obtain ⟨r1, sent1, h1, ho, hs⟩ := C78_follows hwf hb hd h
  obtain ⟨_, m2⟩ := C53_multiple hwf hb hd h1
  obtain ⟨s, flag, r0, hist, sd, hrun, _⟩ := approx_run hwf hb hd h1
  have hc := hrun.calc
  have hleg : ∀ x ∈ sd, x ∈ showdowns (specRanges ranges) (maskCards b) (maskCards d) := fun x hx => legal_iff.1 (hrun.legal x hx)
  have ht : ∀ p < ranges.length, r.ties p = 0 := fun p hp => ho.noTies p (hc.no_ties hsole hp)
  refine ⟨?_, sd, hleg, by rw [← hrun.counts.2, m2, hs], fun p hp => ?_⟩
  · rw [ho.equities]
    unfold getEquityF roundedShares
    simp only
    have e : ((List.range ranges.length).map fun i => fl (fl (0 + fl (r.wins i)) + r.ties i)) =
        List.map (fun w : Nat => fl (w : ℚ)) ((List.range ranges.length).map r.wins) := by
      rw [List.map_map]
      apply List.map_congr_left
      intro p hp
      rw [ht p (List.mem_range.1 hp), zero_add, add_zero, fl_fl, fl_fl]
      rfl
    rw [e]
  · rw [ho.wins, hrun.counts.1.wins p hp, hrun.counts.1.mask _ (Nat.pow_lt_pow_right (by decide) hp)]
    congr 1
    split
    · rename_i h8
      unfold winsOf weightOf
      congr 2
      apply List.filter_congr
      intro x hx
      obtain ⟨q, hq, e⟩ := hsole x (hleg x hx)
      have key : ∀ p < 8, ∀ q < 8, (u8Mask [q] = 2 ^ p ↔ [q] = [p]) := by decide
      have hk := key p h8 q hq
      rw [← e] at hk
      exact decide_eq_decide.2 hk
    · rename_i h8
      unfold weightOf
      rw [List.filter_eq_nil_iff.2]
      · rfl
      · intro x hx
        obtain ⟨q, hq, e⟩ := hsole x (hleg x hx)
        simp only [decide_eq_true_eq]
        rw [e]
        have h9 : p = 8 := by have := hc.few; omega
        have key : ∀ q < 8, u8Mask [q] ≠ 2 ^ 8 := by decide
        rw [h9]
        exact key q hq

/-! ## Nine known hands of weight 64 -/

/-- Known hands allow one deal only. -/
theorem known_deal {cs : List Combo} {blocked : List Nat} {dd : List WHand}
    (h : dd ∈ deals (specRanges (cs.map fun c => [c])) blocked) : dd = cs.map fun c => (c.c1, c.c2, c.w) := by
  unfold deals at h
  obtain ⟨h1, h2⟩ := (mem_choices _ _).1 (List.mem_filter.1 h).1
  have hl : dd.length = cs.length := by rw [h1]; simp [specRanges]
  apply List.ext_getElem (by rw [hl, List.length_map])
  intro i hi hi'
  have := h2 i hi (by simpa [specRanges, hl] using hi)
  unfold specRanges at this
  simp only [List.getElem_map, List.map_cons, List.map_nil, List.mem_singleton] at this
  rw [this, List.getElem_map]
  rfl

theorem weightOf_const {sd : List (List WHand × List Nat)} {W : Nat} (hW : ∀ x ∈ sd, Spec.dealWeight x.1 = W)
    {P : List WHand × List Nat → Prop} [DecidablePred P] (hP : ∀ x ∈ sd, ∀ y ∈ sd, P x → P y) :
    weightOf sd P = 0 ∨ weightOf sd P = sd.length * W := by
  unfold weightOf
  by_cases h : ∃ x ∈ sd, P x
  · obtain ⟨x, hx, hx'⟩ := h
    right
    rw [List.filter_eq_self.2 (fun y hy => by simpa using hP x hx y hy hx')]
    rw [List.eq_replicate_of_mem (l := sd.map fun x => Spec.dealWeight x.1) (a := W) ?_, List.sum_replicate, List.length_map, smul_eq_mul]
    intro y hy
    obtain ⟨z, hz, rfl⟩ := List.mem_map.1 hy
    exact hW z hz
  · left
    rw [List.filter_eq_nil_iff.2]
    · rfl
    · intro y hy hy'
      exact h ⟨y, hy, by simpa using hy'⟩

/-- C78 (finding): nine players whose hands are known and have weight 64: a batch of 4096 evaluations weighs `2 ^ 66`, so in a release build
the number of showdowns of every hand is reported as zero, however many evaluations have been made.  (A debug build panics, `C78_debug`.) -/
theorem C78_no_totals {cs : List Combo} (hwf : ∀ r ∈ cs.map (fun c => [c]), WfRange r) (hb : CardMask b) (hd : CardMask d)
    (h9 : cs.length = 9) (h64 : ∀ c ∈ cs, c.w = 64) (h : ApproxEquityR (cs.map fun c => [c]) b d nT target cancelled (.ok r) sent)
    {p x y : Nat} (hp : p < 9) (hx : x < 52) (hy : y < 52) (hxy : x ≠ y) :
    (r.handResults (NUM_HANDS * p + getCardIndex x y)).total = 0 := by
  obtain ⟨sd, g1, _, g2, _, g3, _⟩ := C78_counts hwf hb hd h
  rw [(g3 p (by rw [List.length_map]; omega) x hx y hy hxy).2.2]
  have hdd : ∀ z ∈ sd, z.1 = cs.map fun c => (c.c1, c.c2, c.w) := fun z hz => known_deal (legal_iff.2 (g1 z hz)).1
  have hW : ∀ z ∈ sd, Spec.dealWeight z.1 = 2 ^ 54 := by
    intro z hz
    rw [hdd z hz]
    unfold Spec.dealWeight
    rw [List.map_map, List.eq_replicate_of_mem (l := cs.map _) (a := 64) ?_, List.prod_replicate, List.length_map, h9]
    · norm_num
    · intro y hy
      obtain ⟨c, hc, rfl⟩ := List.mem_map.1 hy
      exact h64 c hc
  unfold handTotal
  rcases weightOf_const (P := fun z => Holds p x y z.1) hW (fun a ha c hc h => by rw [hdd c hc, ← hdd a ha]; exact h) with e | e
  · rw [e]; rfl
  · rw [e, g2]
    omega

/-- C78: with overflow checks a simulation whose deals weigh `2 ^ 52` or more (a batch then weighs `2 ^ 64`) returns only if it has evaluated
nothing: every batch panics. -/
theorem C78_debug (hwf : ∀ r ∈ ranges, WfRange r) (hb : CardMask b) (hd : CardMask d) {sqrt : ℚ → ℚ}
    (h52 : ∀ dd ∈ deals (specRanges ranges) (maskCards b ++ maskCards d), 2 ^ 52 ≤ Spec.dealWeight dd)
    (h : ApproxEquityC sqrt ranges b d nT target cancelled (.ok r) sent) : r.evalCount = 0 := by
  obtain ⟨p, hp, h⟩ := h
  cases p with
  | error e => cases h.1
  | ok s =>
    obtain ⟨r0, flag, w, h1, h2, h3, h4, h5⟩ := h
    have hr : McReady ranges b d s := ⟨hwf, hb, hd, hp⟩
    obtain ⟨_, _, g3⟩ := h2.sound hr h1 (fun t ht => by rw [h3 t ht]; decide)
    injection h4 with h4
    rw [h4, (finishResults_counts s flag w.shared.results).2.2.2.1]
    exact g3 ⟨2 ^ 52, by decide, fun x hx => h52 x.1 hx.1⟩

/-- C78 (finding): on a full board nothing at all is left of the calculation: all wins are zero, and if the pot is not shared all equities
are NaN, in every release run, for every number of threads, target and time of cancellation.  (In the exact model one player has won
everything.) -/
theorem C78_all_lost {cs : List Combo} (hwf : ∀ r ∈ cs.map (fun c => [c]), WfRange r) (hb : CardMask b) (hd : CardMask d)
    (h9 : cs.length = 9) (h64 : ∀ c ∈ cs, c.w = 64) (h5 : (maskCards b).length = 5)
    (hsole : ∃ p < 8, winners (maskCards b) (cs.map fun c => (c.c1, c.c2, c.w)) = [p])
    (h : ApproxEquityR (cs.map fun c => [c]) b d nT target cancelled (.ok r) sent) :
    (∀ p < 9, r.wins p = 0) ∧ r.equities = List.replicate 9 none := by
  have hshow : ∀ x ∈ showdowns (specRanges (cs.map fun c => [c])) (maskCards b) (maskCards d),
      x = (cs.map fun c => (c.c1, c.c2, c.w), maskCards b) := by
    intro x hx
    obtain ⟨g1, g2⟩ := legal_iff.2 hx
    have e1 := known_deal g1
    have e2 : x.2 = maskCards b := by
      unfold boards at g2
      rw [h5] at g2
      simpa [completions] using g2
    rw [← e1, ← e2]
  have hs' : ∀ x ∈ showdowns (specRanges (cs.map fun c => [c])) (maskCards b) (maskCards d), ∃ p < 8, winners x.2 x.1 = [p] := by
    intro x hx
    rw [hshow x hx]
    exact hsole
  obtain ⟨g1, sd, g2, g3, g4⟩ := C78_no_ties hwf hb hd hs' h
  have hW : ∀ z ∈ sd, Spec.dealWeight z.1 = 2 ^ 54 := by
    intro z hz
    rw [hshow z (g2 z hz)]
    unfold Spec.dealWeight
    rw [List.map_map, List.eq_replicate_of_mem (l := cs.map _) (a := 64) ?_, List.prod_replicate, List.length_map, h9]
    · norm_num
    · intro y hy
      obtain ⟨c, hc, rfl⟩ := List.mem_map.1 hy
      exact h64 c hc
  have hl : (cs.map fun c => [c]).length = 9 := by rw [List.length_map, h9]
  have hw : ∀ p < 9, r.wins p = 0 := by
    intro p hp
    rw [g4 p (by omega)]
    split
    · unfold winsOf
      rcases weightOf_const (P := fun z => winners z.2 z.1 = [p]) hW (fun a ha c hc h => by
        rw [hshow c (g2 c hc), ← hshow a (g2 a ha)]; exact h) with e | e
      · rw [e]; rfl
      · rw [e, g3]
        omega
    · rfl
  refine ⟨hw, ?_⟩
  rw [g1, hl]
  have e : (List.range 9).map r.wins = List.replicate 9 0 := by
    rw [List.eq_replicate_iff]
    refine ⟨by simp, fun x hx => ?_⟩
    obtain ⟨p, hp, rfl⟩ := List.mem_map.1 hx
    exact hw p (List.mem_range.1 hp)
  rw [e]
  decide +kernel

/-! ## Examples -/

/-- Aces against kings on a flop: the release build has runs with three threads of one batch each, and they are runs of the floating-point
model. -/
example (target : ℚ) : ∃ r sent, ApproxEquityR twoHands flopMask 0 3 target false (.ok r) sent ∧ sent.length = 6 ∧ r.evalCount = 12288 ∧
    ApproxEquityF devF (progF target) twoHands flopMask 0 3 target false (.ok r) sent := by
  have hwf : ∀ r ∈ twoHands, WfRange r := by unfold WfRange twoHands; decide
  have hb : CardMask flopMask := by unfold CardMask; decide
  obtain ⟨r, sent, h, he⟩ := two_approx id 0 3 true
  obtain ⟨m1, m2⟩ := C53_multiple hwf hb zero_deck h
  obtain ⟨r', sent', h', ho, hs⟩ := C78_runs hwf hb zero_deck target false h
  have h6 : sent'.length = 6 := by omega
  exact ⟨r', sent', h', h6, by rw [ho.evals, he]; rfl, (C78_two_players hwf hb zero_deck (by decide) (by decide) (by omega)).1 h'⟩

/-- Nine hands of weight 64. -/
def lostHands : List Combo :=
  [⟨48, 49, 64⟩, ⟨44, 45, 64⟩, ⟨40, 41, 64⟩, ⟨36, 37, 64⟩, ⟨32, 33, 64⟩, ⟨28, 29, 64⟩, ⟨24, 25, 64⟩, ⟨20, 21, 64⟩, ⟨1, 2, 64⟩]

/-- A full board: 2, 3, 4, 5 of different suits and a jack. -/
def lostBoard : Nat := 2 ^ 0 + 2 ^ 5 + 2 ^ 10 + 2 ^ 15 + 2 ^ 38

theorem lost_wins : winners (maskCards lostBoard) (lostHands.map fun c => (c.c1, c.c2, c.w)) = [0] := by decide +kernel

theorem lost_run : ∃ r sent, ApproxEquity id (lostHands.map fun c => [c]) lostBoard 0 2 0 true (.ok r) sent ∧ r.evalCount = 4096 * 2 := by
  have hwf : ∀ r ∈ lostHands.map (fun c => [c]), WfRange r := by unfold WfRange lostHands; decide
  have hb : CardMask lostBoard := by unfold CardMask; decide
  have hprep : ∃ s, PrepareApprox (lostHands.map fun c => [c]) lostBoard 0 (.ok s) := by
    refine C39_approx_ok (s0 := Sim.new ((lostHands.map fun c => [c]).map fun h => removeConflictingCombos h lostBoard 0)
      (fromRanges ((lostHands.map fun c => [c]).map fun h => removeConflictingCombos h lostBoard 0)) lostBoard 0 true) ?_
    unfold prepareExact
    rw [show validate (List.length _) _ _ = none by decide +kernel]
    show (if _ then _ else _) = _
    rw [if_neg (by decide +kernel)]
  have hne : deals (specRanges (lostHands.map fun c => [c])) (maskCards lostBoard ++ maskCards 0) ≠ [] := by decide +kernel
  generalize lostHands.map (fun c => [c]) = rs at *
  generalize lostBoard = bd at *
  obtain ⟨s, hs⟩ := hprep
  exact exists_run id 0 hwf hb zero_deck hs hne 2 true

/-- The aces make a straight and win; a release build has runs, and each of them says that all equities are NaN. -/
example (target : ℚ) : (∃ r sent, ApproxEquityR (lostHands.map fun c => [c]) lostBoard 0 2 target false (.ok r) sent ∧ r.evalCount = 8192) ∧
    ∀ cancelled r sent, ApproxEquityR (lostHands.map fun c => [c]) lostBoard 0 2 target cancelled (.ok r) sent →
      r.equities = List.replicate 9 none := by
  have hwf : ∀ r ∈ lostHands.map (fun c => [c]), WfRange r := by unfold WfRange lostHands; decide
  have hb : CardMask lostBoard := by unfold CardMask; decide
  refine ⟨?_, fun cancelled r sent h => (C78_all_lost hwf hb zero_deck rfl (by decide) (by decide +kernel) ⟨0, by decide, lost_wins⟩ h).2⟩
  have h := lost_run
  generalize lostHands.map (fun c => [c]) = rs at *
  generalize lostBoard = bd at *
  obtain ⟨r, sent, h, he⟩ := h
  obtain ⟨r', sent', h', ho, _⟩ := C78_runs hwf hb zero_deck target false h
  refine ⟨r', sent', h', ?_⟩
  rw [ho.evals, he]
  rfl

end Pokers
