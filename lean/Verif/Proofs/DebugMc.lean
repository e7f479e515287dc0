import Verif.Proofs.DebugFinish
import Verif.Proofs.DebugSim
import Verif.Props.Poison
/-!
# The random simulation of a debug build with floating-point numbers: its ends, and runs of the release build that it can make
-/
namespace Pokers
open Spec

section
variable {ranges : List (List Combo)} {b d nT : Nat} {s : Sim} {r0 : Results} {flag : Nat} {target : ℚ}

theorem evalDealCF_local {l l' : McLocal} {ds rest : Draws} (h : evalDealCF s l ds = .ok l' rest) :
    l'.walk = l.walk ∧ l'.stats.evalCount = l.stats.evalCount + 1 := by
  have := evalDeal_ints s (HandsSame.refl l.hands) ds
  rw [show ({ l with hands := l.hands } : McLocal) = l from rfl, h] at this
  obtain ⟨k, h1, hs, _, rfl⟩ := this
  refine ⟨?_, (evalDealC_evals h1).1⟩
  show k.walk = l.walk
  unfold evalDealC at h1
  repeat' split at h1
  all_goals first | cases h1; done | (cases h1; rfl)

theorem WalkFine.stepCF (h : McReady ranges b d s) {l l' : McLocal} {g g' : McShared} {ds rest : Draws} (hl : WalkFine b d s l)
    (hk : l.pc.kind = .compute) (hs : mcStepCF s l g ds = .ok (l', g') rest) : WalkFine b d s l' := by
  obtain ⟨k1, k2⟩ := mcKind_compute hk
  by_cases e : l.pc = .eval
  · obtain ⟨picks, hw⟩ := hl.1 (Or.inl e)
    unfold mcStepCF at hs
    rw [e] at hs
    simp only at hs
    split at hs
    · rename_i l1 ds' hr
      cases hs
      have hwalk : l1.walk = l.walk := (evalDealCF_local hr).1
      exact ⟨fun _ => ⟨picks, by simp only [hwalk]; exact hw⟩, by simp only [hwalk]; exact hl.2⟩
    · cases hs
    · cases hs; exact ⟨fun hp => (by rcases hp with hp | hp <;> cases hp), hl.2⟩
  · refine (hl.step (sqrt := id) (target := 0) (g := g) (g' := g') (ds := ds) (rest := rest) h
      ⟨e, fun e => k1 (Or.inl e), fun e => k1 (Or.inr e)⟩ ?_).1
    unfold mcStepCF at hs
    cases e' : l.pc <;> rw [e'] at hs e k1 <;> simp only at hs <;> first
      | exact hs | exact absurd rfl e

theorem WalkFine.liveCF (h : McReady ranges b d s) {l : McLocal} (hl : WalkFine b d s l) (hk : l.pc.kind = .compute) (g : McShared) :
    ∃ ds l', mcStepCF s l g ds = .ok (l', g) [] := by
  by_cases e : l.pc = .eval
  · obtain ⟨k, ds, board, h1, h2⟩ := hl.board h e
    refine ⟨ds, ?_⟩
    unfold mcStepCF evalDealCF
    rw [e]
    simp only [h1, h2]
    cases l.walk.weightC with
    | none => exact ⟨_, rfl⟩
    | some weight =>
      simp only
      cases evaluateHandsCF s.nPlayers (s.nPlayers * NUM_HANDS) l.walk.hands weight board l.walk.lookup true (l.stats, l.hands) with
      | none => exact ⟨_, rfl⟩
      | some st => exact ⟨_, rfl⟩
  · obtain ⟨ds, l', h1⟩ := hl.live (sqrt := id) (target := 0) h hk g e
    refine ⟨ds, l', ?_⟩
    unfold mcStepCF
    cases e' : l.pc <;> rw [e'] at hk e <;> simp only <;> first
      | exact h1 | exact absurd rfl e

theorem mcStepCF_measure {l l' : McLocal} {g g' : McShared} {ds rest : Draws} (hk : l.pc.kind = .compute) (hg : g.stopped = true)
    (hs : mcStepCF s l g ds = .ok (l', g') rest) : cancelMeasure l' < cancelMeasure l := by
  unfold mcStepCF at hs
  cases e : l.pc <;> rw [e] at hs <;> simp only at hs
  case flush => rw [e] at hk; cases hk
  case final => rw [e] at hk; cases hk
  case eval =>
    split at hs
    · rename_i l1 _ h1
      cases hs
      have := evalsLeft_next (c := l.stats.evalCount) (c' := l1.stats.evalCount) (by rw [(evalDealCF_local h1).2])
      unfold cancelMeasure
      rw [e]
      simp only
      split at this
      · rename_i h; simp only [h, if_true]; exact this
      · rename_i h; simp only [h, if_false]; exact this
    · cases hs
    · cases hs; unfold cancelMeasure; rw [e]; simp only; omega
  all_goals exact mcStep_measure hk (by rw [e]; decide) hg hs

/-! ## Runs of the release build that leave room -/

/-- One step of a release build and the step with exact numbers. -/
theorem McStepR.mod {w0 v u u' : McWorld} (hex : s.calcExact = false) (h1 : McSteps (fun _ => 0) 0 s nT w0 v) (h2 : McWorldMod v u)
    (hs : McStepR target s nT u u') :
    ∃ v', McSteps (fun _ => 0) 0 s nT w0 v' ∧ McWorldMod v' u' ∧ v.evals nT ≤ v'.evals nT := by
  cases hs with
  | cancel => exact ⟨_, .step h1 (.cancel v), ⟨h2.locals, ⟨h2.shared.results, h2.shared.sent⟩, rfl⟩, Nat.le_refl _⟩
  | thread t ht hpc ds x' y' hx =>
    obtain ⟨x, y, e1, e2, e3, e4⟩ := mcStepR_back (fun _ => 0) 0 target hex (h2.locals t) h2.shared h2.stopped hx
    rw [(h2.locals t).pc] at hpc
    have hstep := McStep.thread v t ht hpc ds x y e1
    have hl := mcLocalMod_update h2.locals t e2
    have hy : y.stopped = v.shared.stopped := by
      rcases e4 with ⟨h, _⟩ | ⟨_, fin, h, _⟩
      · exact h
      · rw [h]; exact update_zero_stopped s hex fin _ _
    by_cases hst : y'.stopped = y.stopped
    · exact ⟨_, .step h1 hstep, ⟨hl, e3, hst⟩, hstep.evals_le⟩
    · have hy' : y'.stopped = true := by
        rcases e4 with ⟨_, h⟩ | ⟨_, fin, _, h⟩
        · exact absurd (by rw [h, hy, h2.stopped]) hst
        · rw [h] at hst ⊢
          unfold McShared.updateR at hst ⊢
          simp only at hst ⊢
          split
          · rfl
          · rename_i hn
            rw [if_neg hn, hy, h2.stopped] at hst
            exact absurd rfl hst
      exact ⟨_, (McSteps.step h1 hstep).step (.cancel _), ⟨hl, ⟨e3.results, e3.sent⟩, hy'⟩, hstep.evals_le⟩

theorem evals_mod {w w' : McWorld} (h : McWorldMod w w') : w'.evals nT ≤ w.evals nT := by
  unfold McWorld.evals
  refine Nat.add_le_add ?_ (Finset.sum_le_sum fun t _ => ?_)
  · rw [h.shared.results.evals]; exact Nat.mod_le _ _
  · have := (h.locals t).stats.evals
    simp only at this
    rw [this]; exact Nat.mod_le _ _

theorem evals_sim {w w' : Pool McLocal Results} (h : PoolSim McLocalSame ResSame₀ w w') : w.mcWorld.evals nT = w'.mcWorld.evals nT := by
  unfold McWorld.evals
  congr 1
  · exact h.results.1.evals.symm
  · refine Finset.sum_congr rfl fun t _ => ?_
    obtain ⟨hs, _, e⟩ := h.locals t
    show (w.locals t).stats.evalCount = (w'.locals t).stats.evalCount
    rw [e]

theorem evals_fail (u : Pool McLocal Results) (t : Nat) :
    (Pool.mcWorld { u with locals := Function.update u.locals t ((approxDebugF target s).fail (u.locals t)) }).evals nT =
      u.mcWorld.evals nT := by
  unfold McWorld.evals
  congr 1
  refine Finset.sum_congr rfl fun x _ => ?_
  show (Function.update u.locals t _ x).stats.evalCount = (u.locals x).stats.evalCount
  by_cases e : x = t
  · subst e; rw [Function.update_self]; rfl
  · rw [Function.update_of_ne e]

theorem startResults_stdev (h : startResults s = some (r0, flag)) : r0.stdev = 0 := by
  unfold startResults at h
  simp only [Option.map_eq_some_iff] at h
  obtain ⟨_, _, h⟩ := h
  cases h
  rfl

/-- A run of the release build that leaves room is a run of the debug build. -/
theorem release_debug (hr : McReady ranges b d s) (h100 : ∀ r ∈ ranges, ∀ c ∈ r, c.w ≤ 100) (hr0 : startResults s = some (r0, flag))
    {cancelled : Bool} {k : Nat} {v : Pool McLocal Results}
    (hs : (approxRelease target s).Steps nT (Call.init (McLocal.init s.nPlayers) r0 cancelled).threads.toPool k v) :
    ∃ w, McSteps (fun _ => 0) 0 s nT (McWorld.init s r0 cancelled) w ∧ McWorldMod w v.mcWorld ∧
      ((w.evals nT + 1) * 100 ^ ranges.length < 2 ^ 64 →
        (approxDebugF target s).Steps nT (Call.init (McLocal.init s.nPlayers) r0 cancelled).threads.toPool k v) := by
  have hex : s.calcExact = false := hr.fields.2.2.2.2.1
  induction hs with
  | refl => exact ⟨_, .refl, init_mcWorldMod hr0 cancelled, fun _ => .refl⟩
  | cancel _ ih =>
    obtain ⟨w, h1, h2, h3⟩ := ih
    obtain ⟨w', g1, g2, g3⟩ := McStepR.mod hex h1 h2 (.cancel (target := target) _)
    exact ⟨w', g1, g2, fun h => .cancel (h3 (lt_of_le_of_lt (Nat.mul_le_mul_right _ (by omega)) h))⟩
  | @step k u v _ hs ih =>
    obtain ⟨w, h1, h2, h3⟩ := ih
    obtain ⟨w', g1, g2, g3⟩ := McStepR.mod hex h1 h2 (approxRelease_step hs)
    refine ⟨w', g1, g2, fun h => ?_⟩
    have hroom : (w.evals nT + 1) * 100 ^ ranges.length < 2 ^ 64 := lt_of_le_of_lt (Nat.mul_le_mul_right _ (by omega)) h
    rcases (approx_below hex target).unstep hs with hP | ⟨t, ht, hP⟩
    · exact .step (h3 hroom) hP
    · exfalso
      obtain ⟨z, z1, z2⟩ := (approx_sim target s).steps (u := (Call.init (McLocal.init s.nPlayers) r0 cancelled).threads.toPool)
        ⟨fun _ => ⟨_, HandsSame.refl _, rfl⟩, ⟨ResSame.refl _, startResults_stdev hr0⟩, rfl, rfl, rfl⟩ (.step (h3 hroom) hP)
      have he : z.mcWorld.evals nT ≤ w.evals nT := by
        rw [evals_sim z2, evals_fail]
        exact evals_mod h2
      refine C59_no_panic hr h100 hr0 (approxDebug_steps z1 : McStepsC (fun _ => 0) 0 s nT (McWorld.init s r0 cancelled) z.mcWorld)
        (lt_of_le_of_lt (Nat.mul_le_mul_right _ (by omega)) hroom) ht ?_
      obtain ⟨hs, _, e⟩ := z2.locals t
      have e' : (Function.update u.locals t ((approxDebugF target s).fail (u.locals t)) t).pc = (z.locals t).pc := by
        rw [show Function.update u.locals t ((approxDebugF target s).fail (u.locals t)) t = _ from e]
      rw [Function.update_self] at e'
      exact e'.symm

end
end Pokers
