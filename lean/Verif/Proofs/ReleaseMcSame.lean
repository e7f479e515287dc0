import Verif.Proofs.ReleaseMc
import Verif.Proofs.ReleaseSame
import Verif.Proofs.CheckedMc
/-!
# Without overflow the release build of the random simulation computes what the floating-point model computes
-/
namespace Pokers
open Spec CombinedRange

theorem updateResultsC_mode {sqrt : ℚ → ℚ} {n : Nat} {ex : Bool} {b : Batch} {hb : HandStats} {r r1 : Results}
    (h : updateResultsC sqrt n ex b hb r = some r1) : ∃ r2, updateResultsC id n true b hb r = some r2 := by
  unfold updateResultsC at h ⊢
  simp only [Option.bind_eq_bind] at h ⊢
  obtain ⟨hand, h1, h⟩ := Option.bind_eq_some_iff.1 h
  obtain ⟨m, h2, h⟩ := Option.bind_eq_some_iff.1 h
  obtain ⟨e, h3, _⟩ := Option.bind_eq_some_iff.1 h
  rw [h1, Option.bind_some, h2, Option.bind_some, h3, Option.bind_some]
  exact ⟨_, rfl⟩

theorem updateResultsC_masks {sqrt : ℚ → ℚ} {n : Nat} {ex : Bool} {b : Batch} {hb : HandStats} {r r1 : Results}
    (h : updateResultsC sqrt n ex b hb r = some r1) : ∃ m, mergeMasksC n b ⟨r.wins, r.ties, r.winsByMask, 0, 0⟩ = some m := by
  unfold updateResultsC at h
  simp only [Option.bind_eq_bind] at h
  obtain ⟨hand, h1, h⟩ := Option.bind_eq_some_iff.1 h
  obtain ⟨m, h2, h⟩ := Option.bind_eq_some_iff.1 h
  exact ⟨m, h2⟩

theorem updateBatch_same {sqrt : ℚ → ℚ} {n : Nat} {ex : Bool} {b : Batch} {hb hb' : HandStats} {r r1 r' : Results}
    (hh : ∀ k, UInt (hb k) (hb' k)) (hr : ResClose n r r') (hC : updateResultsC sqrt n ex b hb r = some r1) :
    updateBatchR n b hb' r' = updateResultsF devF n false b hb' r' := by
  obtain ⟨r2, h2⟩ := updateResultsC_mode hC
  obtain ⟨m, hm⟩ := updateResultsC_masks hC
  have e1 := updateResults_same hh hr devF h2
  have e2 := mergeMasks_same (m := ⟨r.wins, r.ties, r.winsByMask, 0, 0⟩) (m' := ⟨r'.wins, r'.ties, r'.winsByMask, 0, 0⟩)
    ⟨hr.wins, hr.masks, rfl⟩ hm
  unfold updateBatchR
  simp only
  rw [e1, e2]
  rfl

section
variable {ranges : List (List Combo)} {b d : Nat} {s : Sim} {nT : Nat} {r0 : Results} {flag : Nat} {target : ℚ}

/-- While there is room, a step of the release build is a step of the floating-point model. -/
theorem mcStep_same (hr : McReady ranges b d s) (h100 : ∀ r ∈ ranges, ∀ c ∈ r, c.w ≤ 100) (hr0 : startResults s = some (r0, flag))
    {w w' : McWorld} {hist : List (Batch × HandStats)} {Dr : List (List WHand × List Nat)} {Dl : Nat → List (List WHand × List Nat)}
    (hI : McInv (fun _ => 0) ranges b d s r0 nT w hist Dr Dl) (hw : McWorldClose s.nPlayers w w') {t : Nat} (ht : t < nT) (ds : Draws)
    (hroom : (w.evals nT + 1) * 100 ^ ranges.length < 2 ^ 64) :
    mcStepR target s (w'.locals t) w'.shared ds = mcStepF devF (progF target) target s (w'.locals t) w'.shared ds := by
  have hex : s.calcExact = false := by
    obtain ⟨s0, _, _, e⟩ := hr.exact
    rw [e]
  have hge := evals_ge (w := w) ht
  have hC := hI.stepC_eq (target := 0) hr h100 hr0 ht ds ⟨fun _ => lt_of_le_of_lt (Nat.mul_le_mul_right _ (by omega)) hroom,
    lt_of_le_of_lt (Nat.mul_le_mul_right _ (by omega)) hroom⟩
  have hU := fun fin => hI.updateC (target := 0) hr h100 hr0 ht (lt_of_le_of_lt (Nat.mul_le_mul_right _ (by omega)) hroom) fin
  have hl := hw.locals t
  have hg := hw.shared
  have hsum : ∀ fin, w'.shared.updateR target s fin (w'.locals t) = w'.shared.updateF devF (progF target) target s fin (w'.locals t) := by
    intro fin
    obtain ⟨_, h2⟩ := updateC_sound (hU fin)
    have e := updateBatch_same (hb' := (w'.locals t).hands) hl.stats.int.2 hg.results h2
    have hb : (w'.locals t).stats = (w.locals t).stats := hl.stats.1
    unfold McShared.updateR McShared.updateF
    rw [hex, hb, e]
  rcases quiet_or (w'.locals t).pc with hpc | hpc | hpc | hq
  · have hpc' : (w.locals t).pc = .eval := by rw [← hl.pc]; exact hpc
    have e : evalDealR s (w'.locals t) ds = evalDealF s (w'.locals t) ds := by
      obtain ⟨picks, hwalk⟩ := hI.walk t ht (Or.inl hpc')
      obtain ⟨dd, hdd, hat⟩ := hr.atDeal hwalk (hI.outside t ht)
      have hnp := (hr.evalDeal hdd hat ds).1
      unfold mcStepC mcStep at hC
      rw [hpc'] at hC
      simp only at hC
      have hEC : evalDealC s (w.locals t) ds ≠ .panic := by
        intro hp
        rw [hp] at hC
        cases hq : evalDeal s (w.locals t) ds with
        | panic => exact hnp hq
        | more => rw [hq] at hC; cases hC
        | ok a rest =>
          rw [hq] at hC
          have := congrArg (fun o : Out (McLocal × McShared) => match o with | .ok x _ => x.1.pc | _ => .start) hC
          simp only at this
          split at this <;> cases this
      unfold evalDealC at hEC
      unfold evalDealR evalDealF
      rw [hl.walk]
      cases hk : subC 5 s.fixedBoard.count with
      | none => rfl
      | some k =>
        rw [hk] at hEC
        simp only at hEC ⊢
        cases hW : (w.locals t).walk.weightC with
        | none => rw [hW] at hEC; exact absurd rfl hEC
        | some weight =>
          rw [hW] at hEC
          simp only at hEC
          cases hB : randomizeBoard k ((w.locals t).walk.used ||| s.deadMask) s.fixedBoard ds with
          | more => rfl
          | panic => rfl
          | ok board rest =>
            rw [hB] at hEC
            simp only at hEC ⊢
            cases hE : evaluateHandsC s.nPlayers (s.nPlayers * NUM_HANDS) (w.locals t).walk.hands weight board (w.locals t).walk.lookup true
                ((w.locals t).stats, (w.locals t).hands) with
            | none => rw [hE] at hEC; exact absurd rfl hEC
            | some st =>
              obtain ⟨hlt, h2, _⟩ := evaluateHands_same hl.stats.int hE
              rw [weightR_eq, ← weightC_sound hW, wrap_of_lt hlt, h2]
    unfold mcStepR mcStepF
    rw [hpc]
    simp only
    rw [e]
    cases evalDealF s (w'.locals t) ds <;> rfl
  · unfold mcStepR mcStepF
    rw [hpc]
    simp only
    rw [hsum]
  · unfold mcStepR mcStepF
    rw [hpc]
    simp only
    rw [hsum]
  · rw [mcStepR_quiet target s hq]
    unfold mcStepF
    obtain ⟨q1, q2, q3⟩ := hq
    cases hpc : (w'.locals t).pc <;> first | rfl | (rw [hpc] at q1 q2 q3; simp at q1 q2 q3)

/-- A run of the floating-point model that leaves room is a run of the release build. -/
theorem McStepsF.release (hr : McReady ranges b d s) (h100 : ∀ r ∈ ranges, ∀ c ∈ r, c.w ≤ 100) (hr0 : startResults s = some (r0, flag))
    {cancelled : Bool} {w' : McWorld} (hs : McStepsF devF (progF target) target s nT (McWorld.init s r0 cancelled) w') :
    ∃ w, McSteps (fun _ => 0) 0 s nT (McWorld.init s r0 cancelled) w ∧ McWorldClose s.nPlayers w w' ∧
      ((w.evals nT + 1) * 100 ^ ranges.length < 2 ^ 64 → McStepsR target s nT (McWorld.init s r0 cancelled) w') := by
  have h9 : s.nPlayers ≤ 9 := by obtain ⟨f1, _, _, _, _, _, f7, _⟩ := hr.fields; omega
  have hex : s.calcExact = false := by
    obtain ⟨s0, _, _, e⟩ := hr.exact
    rw [e]
  induction hs with
  | refl => exact ⟨_, .refl, init_mcWorldClose hr0 cancelled, fun _ => .refl⟩
  | @step u _ _ hstep ih =>
    obtain ⟨v, h1, h2, h3⟩ := ih
    cases hstep with
    | cancel =>
      exact ⟨_, .step h1 (.cancel v), ⟨h2.locals, rfl, h2.shared.results, h2.shared.fresh, h2.shared.sent⟩,
        fun h => .step (h3 h) (.cancel _)⟩
    | thread t ht hpc ds l' g' hst =>
      obtain ⟨x, y, e1, e2, e3⟩ := mcStep_close h9 hex (h2.locals t) h2.shared hst
      have hpc0 := hpc
      rw [(h2.locals t).pc] at hpc
      have hstep := McStep.thread v t ht hpc ds x y e1
      have hloc := mcLocals_update h2.locals t e2
      have hle := hstep.evals_le
      obtain ⟨_, _, _, hI⟩ := McInv.steps hr h1
      have key : (McWorld.evals ⟨Function.update v.locals t x, y⟩ nT + 1) * 100 ^ ranges.length < 2 ^ 64 →
          McStepsR target s nT (McWorld.init s r0 cancelled) ⟨Function.update u.locals t l', g'⟩ := by
        intro h
        have hv : (v.evals nT + 1) * 100 ^ ranges.length < 2 ^ 64 := lt_of_le_of_lt (Nat.mul_le_mul_right _ (by omega)) h
        refine .step (h3 hv) (.thread _ t ht hpc0 ds l' g' ?_)
        rw [mcStep_same hr h100 hr0 hI h2 ht ds hv]
        exact hst
      rcases e3 with e3 | e3
      · exact ⟨_, .step h1 hstep, ⟨hloc, e3⟩, key⟩
      · exact ⟨_, (McSteps.step h1 hstep).step (.cancel _), ⟨hloc, e3⟩, key⟩

/-- A run of the release build that leaves room is a run of the floating-point model. -/
theorem McStepsR.float (hr : McReady ranges b d s) (h100 : ∀ r ∈ ranges, ∀ c ∈ r, c.w ≤ 100) (hr0 : startResults s = some (r0, flag))
    {cancelled : Bool} {w' : McWorld} (hs : McStepsR target s nT (McWorld.init s r0 cancelled) w') :
    ∃ w, McSteps (fun _ => 0) 0 s nT (McWorld.init s r0 cancelled) w ∧ McWorldMod w w' ∧
      ((w.evals nT + 1) * 100 ^ ranges.length < 2 ^ 64 →
        McStepsF devF (progF target) target s nT (McWorld.init s r0 cancelled) w' ∧ McWorldClose s.nPlayers w w') := by
  have h9 : s.nPlayers ≤ 9 := by obtain ⟨f1, _, _, _, _, _, f7, _⟩ := hr.fields; omega
  have hex : s.calcExact = false := by
    obtain ⟨s0, _, _, e⟩ := hr.exact
    rw [e]
  induction hs with
  | refl => exact ⟨_, .refl, init_mcWorldMod hr0 cancelled, fun _ => ⟨.refl, init_mcWorldClose hr0 cancelled⟩⟩
  | @step u _ _ hstep ih =>
    obtain ⟨v, h1, h2, h3⟩ := ih
    cases hstep with
    | cancel =>
      refine ⟨_, .step h1 (.cancel v), ⟨h2.locals, ⟨h2.shared.results, h2.shared.sent⟩, rfl⟩, fun h => ?_⟩
      obtain ⟨g1, g2⟩ := h3 h
      exact ⟨.step g1 (.cancel _), ⟨g2.locals, rfl, g2.shared.results, g2.shared.fresh, g2.shared.sent⟩⟩
    | thread t ht hpc ds x' y' hx =>
      obtain ⟨x, y, e1, e2, e3, e4⟩ := mcStepR_back (fun _ => 0) 0 target hex (h2.locals t) h2.shared h2.stopped hx
      have hpc0 := hpc
      rw [(h2.locals t).pc] at hpc
      have hstep := McStep.thread v t ht hpc ds x y e1
      have hle := hstep.evals_le
      have hl := mcLocalMod_update h2.locals t e2
      obtain ⟨_, _, _, hI⟩ := McInv.steps hr h1
      have key : ∀ st, y'.stopped = st →
          (McWorld.evals ⟨Function.update v.locals t x, { y with stopped := st }⟩ nT + 1) * 100 ^ ranges.length < 2 ^ 64 →
          McStepsF devF (progF target) target s nT (McWorld.init s r0 cancelled) ⟨Function.update u.locals t x', y'⟩ ∧
          McWorldClose s.nPlayers ⟨Function.update v.locals t x, { y with stopped := st }⟩ ⟨Function.update u.locals t x', y'⟩ := by
        intro st hst h
        have hv : (v.evals nT + 1) * 100 ^ ranges.length < 2 ^ 64 := by
          refine lt_of_le_of_lt (Nat.mul_le_mul_right _ (Nat.succ_le_succ hle)) ?_
          exact h
        obtain ⟨g1, g2⟩ := h3 hv
        rw [mcStep_same hr h100 hr0 hI g2 ht ds hv] at hx
        obtain ⟨x2, y2, k1, k2, k3⟩ := mcStep_close h9 hex (g2.locals t) g2.shared hx
        rw [e1] at k1
        obtain ⟨k1, _⟩ := Out.ok.inj k1
        obtain ⟨k4, k5⟩ := Prod.mk.inj k1
        subst k4 k5
        refine ⟨.step g1 (.thread _ t ht hpc0 ds x' y' hx), mcLocals_update g2.locals t k2, ?_⟩
        rcases k3 with k3 | k3
        · exact ⟨hst, k3.results, k3.fresh, k3.sent⟩
        · exact ⟨hst, k3.results, k3.fresh, k3.sent⟩
      have hy : y.stopped = v.shared.stopped := by
        rcases e4 with ⟨h, _⟩ | ⟨_, fin, h, _⟩
        · exact h
        · rw [h]; exact update_zero_stopped s hex fin _ _
      by_cases hst : y'.stopped = y.stopped
      · exact ⟨_, .step h1 hstep, ⟨hl, e3, hst⟩, key _ hst⟩
      · have hy' : y'.stopped = true := by
          rcases e4 with ⟨_, h⟩ | ⟨_, fin, _, h⟩
          · exact absurd (by rw [h, hy, h2.stopped]) hst
          · rw [h] at hst ⊢
            unfold McShared.updateR at hst ⊢
            simp only at hst ⊢
            split
            · rfl
            · rename_i hn
              rw [if_neg hn, hy, h2.stopped] at hst
              exact absurd rfl hst
        exact ⟨_, (McSteps.step h1 hstep).step (.cancel _), ⟨hl, ⟨e3.results, e3.sent⟩, hy'⟩, key _ hy'⟩

end

end Pokers
