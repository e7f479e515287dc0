import Verif.Proofs.PoisonRun
import Verif.Proofs.LocksMc
import Verif.Proofs.McLive
/-!
# The threads of the two builds

The steps of `exactDebug`, `exactRelease`, `approxDebug` and `approxRelease` are those of the models with atomic steps.
-/
namespace Pokers
open Finset (range)

theorem exactProgram_lawful (n total : Nat) (stop : Nat → Option Nat) (process : Nat → Batch × HandStats → Option (Batch × HandStats))
    (merge : Batch → HandStats → Results → Option Results) (progress : Nat → Nat) :
    (exactProgram n total stop process merge progress).Lawful where
  fail _ := rfl
  stop _ _ _ := rfl
  progress h := by cases h

theorem approxProgram_lawful (n : Nat) (step : McLocal → McShared → Draws → Out (McLocal × McShared))
    (merge : Batch → HandStats → Results → Option Results) (progress : Results → Nat) (below : Results → Bool) :
    (approxProgram n step merge progress below).Lawful where
  fail _ := rfl
  stop h := by cases h
  progress _ _ _ _ := rfl

theorem kind_done {pc : Pc} : pc.kind = .done ↔ pc = .done := by cases pc <;> decide
theorem kind_panicked {pc : Pc} : pc.kind = .panicked ↔ pc = .panicked := by cases pc <;> decide
theorem mcKind_done {pc : McPc} : pc.kind = .done ↔ pc = .done := by cases pc <;> decide
theorem mcKind_panicked {pc : McPc} : pc.kind = .panicked ↔ pc = .panicked := by cases pc <;> decide

/-! ## The exact calculation -/

def Pool.world (v : Pool Local Results) : World := { locals := v.locals, shared := ⟨v.pos, v.results, v.stopped, v.sent⟩ }

def World.pool (w : World) : Pool Local Results :=
  { locals := w.locals, results := w.shared.results, pos := w.shared.enumPos, stopped := w.shared.stopped, sent := w.shared.sent }

section exact
variable {s : Sim} {ds : List DividerU64} {total size nT : Nat}

theorem exactDebug_step {u v : Pool Local Results} (h : (exactDebug s ds total size).Step nT u v) : StepC s ds total size nT u.world v.world := by
  have key : ∀ {t : Nat} (_ : t < nT), (u.locals t).pc.kind ≠ .done ∧ (u.locals t).pc.kind ≠ .panicked → ∀ x,
      threadStepC s ds total size (u.locals t) u.world.shared = x →
      StepC s ds total size nT u.world { locals := Function.update u.locals t x.1, shared := x.2 } := by
    intro t ht hk x hx
    subst hx
    exact StepC.thread u.world t ht ⟨fun e => hk.1 (kind_done.2 e), fun e => hk.2 (kind_panicked.2 e)⟩
  cases h with
  | @compute t l ht hk h =>
    have hk' : (u.locals t).pc.kind = .compute := hk
    refine key ht (by rw [hk']; decide) (l, u.world.shared) ?_
    simp only [exactDebug, exactProgram] at h
    unfold threadStepC
    cases e : (u.locals t).pc <;> rw [e] at hk' h <;> first | (exfalso; revert hk'; decide) | skip
    · simp only at h ⊢
      cases e2 : s.processPosC ds (u.locals t).pos ((u.locals t).stats, (u.locals t).hands) with
      | none => rw [e2] at h; simp only at h; subst h; rfl
      | some st =>
        rw [e2] at h
        simp only at h ⊢
        rw [h]
        by_cases h5 : st.1.evalCount ≥ 10000
        · simp only [if_pos h5]
        · simp only [if_neg h5]
    · simp only at h ⊢
      rw [h]
      unfold threadStep
      rw [e]
      simp only [Pool.world]
      by_cases h5 : u.stopped = true
      · rw [show (if u.stopped = true then { u.locals t with pc := Pc.final } else (u.locals t).advance) = _ from if_pos h5]
        exact if_pos h5
      · rw [show (if u.stopped = true then { u.locals t with pc := Pc.final } else (u.locals t).advance) = _ from if_neg h5]
        exact if_neg h5
  | @reserve t x ht hk h =>
    have hk' : (u.locals t).pc.kind = .reserve := hk
    refine key ht (by rw [hk']; decide) (x.1, ⟨x.2, u.results, u.stopped, u.sent⟩) ?_
    simp only [exactDebug, exactProgram] at h
    have e : (u.locals t).pc = .reserve := by cases e : (u.locals t).pc <;> rw [e] at hk' <;> first | rfl | (exfalso; revert hk'; decide)
    unfold threadStepC threadStep
    rw [e]
    simp only [Pool.world]
    cases hf : fits 64 (u.pos + size) with
    | none => rw [hf] at h; cases h
    | some z => rw [hf] at h; cases h; rfl
  | @reserveFail t ht hk h =>
    have hk' : (u.locals t).pc.kind = .reserve := hk
    refine key ht (by rw [hk']; decide) ({ u.locals t with pc := .panicked }, u.world.shared) ?_
    simp only [exactDebug, exactProgram] at h
    have e : (u.locals t).pc = .reserve := by cases e : (u.locals t).pc <;> rw [e] at hk' <;> first | rfl | (exfalso; revert hk'; decide)
    unfold threadStepC threadStep
    rw [e]
    simp only [Pool.world]
    cases hf : fits 64 (u.pos + size) with
    | none => rfl
    | some z => rw [hf] at h; cases h
  | @update t r ht hk h =>
    have hk' : (u.locals t).pc.kind = .update := hk
    refine key ht (by rw [hk']; decide) ((u.locals t).afterUpdate s.nPlayers, ⟨u.pos, r, u.stopped, u.sent ++ [progressExact u.pos total]⟩) ?_
    have h : updateResultsC id s.nPlayers s.calcExact (u.locals t).stats (u.locals t).hands u.results = some r := h
    unfold threadStepC Local.afterUpdate
    cases e : (u.locals t).pc <;> rw [e] at hk' <;> first | (exfalso; revert hk'; decide) | skip
    all_goals simp only [Pool.world, h]
  | @updateFail t ht hk h =>
    have hk' : (u.locals t).pc.kind = .update := hk
    refine key ht (by rw [hk']; decide) ({ u.locals t with pc := .panicked }, u.world.shared) ?_
    have h : updateResultsC id s.nPlayers s.calcExact (u.locals t).stats (u.locals t).hands u.results = none := h
    unfold threadStepC
    cases e : (u.locals t).pc <;> rw [e] at hk' <;> first | (exfalso; revert hk'; decide) | skip
    all_goals simp only [Pool.world, h]

theorem exactDebug_steps {u v : Pool Local Results} {k : Nat} (h : (exactDebug s ds total size).Steps nT u k v) :
    StepsC s ds total size nT u.world v.world := by
  induction h with
  | refl => exact .refl
  | step _ hs ih => exact .step ih (exactDebug_step hs)
  | cancel _ ih => exact .step ih (.cancel _)

theorem debug_stepC {w v : World} {x : Pool Local Results} {k : Nat} (hx : (exactDebug s ds total size).Steps nT x k w.pool)
    (h : StepC s ds total size nT w v) : ∃ k, (exactDebug s ds total size).Steps nT x k v.pool := by
  cases h with
  | cancel => exact ⟨k, .cancel hx⟩
  | thread t ht hpc =>
    refine ⟨k + 1, .step hx ?_⟩
    have key : ∀ x, threadStepC s ds total size (w.locals t) w.shared = x →
        (exactDebug s ds total size).Step nT w.pool
          { locals := Function.update w.locals t x.1, results := x.2.results, pos := x.2.enumPos, stopped := x.2.stopped, sent := x.2.sent } →
        (exactDebug s ds total size).Step nT w.pool (World.pool
          { locals := Function.update w.locals t (threadStepC s ds total size (w.locals t) w.shared).1,
            shared := (threadStepC s ds total size (w.locals t) w.shared).2 }) := by
      intro x hx h; subst hx; exact h
    cases e : (w.locals t).pc with
    | done => exact absurd e hpc.1
    | panicked => exact absurd e hpc.2
    | reserve =>
      have hk : (exactDebug s ds total size).kind (w.pool.locals t) = .reserve := by show (w.locals t).pc.kind = _; rw [e]; rfl
      cases hf : fits 64 (w.shared.enumPos + size) with
      | none =>
        refine key ({ w.locals t with pc := .panicked }, w.shared) (by unfold threadStepC threadStep; rw [e]; simp only [hf]) ?_
        exact .reserveFail ht hk (by simp only [exactDebug, exactProgram, World.pool, hf]; rfl)
      | some z =>
        refine key ({ w.locals t with
            pos := w.shared.enumPos, stop := min total z, pc := if w.shared.enumPos ≥ min total z then .final else .work },
          { w.shared with enumPos := min total z }) (by unfold threadStepC threadStep; rw [e]; simp only [hf]) ?_
        refine .reserve (x := ({ w.locals t with
            pos := w.shared.enumPos, stop := min total z, pc := if w.shared.enumPos ≥ min total z then .final else .work },
          min total z)) ht hk ?_
        show (fits 64 (w.shared.enumPos + size)).map _ = _
        rw [hf]; rfl
    | work =>
      have hk : (exactDebug s ds total size).kind (w.pool.locals t) = .compute := by show (w.locals t).pc.kind = _; rw [e]; rfl
      cases hf : s.processPosC ds (w.locals t).pos ((w.locals t).stats, (w.locals t).hands) with
      | none =>
        refine key ({ w.locals t with pc := .panicked }, w.shared) (by unfold threadStepC; rw [e]; simp only [hf]) ?_
        refine .compute ht hk ?_
        simp only [exactDebug, exactProgram, World.pool, e, hf]
      | some st =>
        refine key (if st.1.evalCount ≥ 10000 then { w.locals t with pc := .flush, stats := st.1, hands := st.2 }
            else { w.locals t with stats := st.1, hands := st.2 }.advance, w.shared) ?_ ?_
        · unfold threadStepC; rw [e]; simp only [hf]; split <;> simp_all
        · refine .compute ht hk ?_
          simp only [exactDebug, exactProgram, World.pool, e, hf]
    | check =>
      have hk : (exactDebug s ds total size).kind (w.pool.locals t) = .compute := by show (w.locals t).pc.kind = _; rw [e]; rfl
      refine key (if w.shared.stopped then { w.locals t with pc := .final } else (w.locals t).advance, w.shared) ?_ ?_
      · unfold threadStepC threadStep; rw [e]; simp only; split <;> rfl
      · refine .compute ht hk ?_
        simp only [exactDebug, exactProgram, World.pool, e]
    | flush =>
      have hk : (exactDebug s ds total size).kind (w.pool.locals t) = .update := by show (w.locals t).pc.kind = _; rw [e]; rfl
      cases hf : updateResultsC id s.nPlayers s.calcExact (w.locals t).stats (w.locals t).hands w.shared.results with
      | none =>
        refine key ({ w.locals t with pc := .panicked }, w.shared) (by unfold threadStepC; rw [e]; simp only [hf]) ?_
        exact .updateFail ht hk hf
      | some r =>
        refine key ((w.locals t).afterUpdate s.nPlayers, { w.shared with results := r, sent := w.shared.sent ++ [progressExact w.shared.enumPos total] })
          (by unfold threadStepC Local.afterUpdate; rw [e]; simp only [hf]) ?_
        exact .update ht hk hf
    | final =>
      have hk : (exactDebug s ds total size).kind (w.pool.locals t) = .update := by show (w.locals t).pc.kind = _; rw [e]; rfl
      cases hf : updateResultsC id s.nPlayers s.calcExact (w.locals t).stats (w.locals t).hands w.shared.results with
      | none =>
        refine key ({ w.locals t with pc := .panicked }, w.shared) (by unfold threadStepC; rw [e]; simp only [hf]) ?_
        exact .updateFail ht hk hf
      | some r =>
        refine key ((w.locals t).afterUpdate s.nPlayers, { w.shared with results := r, sent := w.shared.sent ++ [progressExact w.shared.enumPos total] })
          (by unfold threadStepC Local.afterUpdate; rw [e]; simp only [hf]) ?_
        exact .update ht hk hf

theorem debug_stepsC {u w : World} (h : StepsC s ds total size nT u w) : ∃ k, (exactDebug s ds total size).Steps nT u.pool k w.pool := by
  induction h with
  | refl => exact ⟨0, .refl⟩
  | step _ hs ih =>
    obtain ⟨k, hk⟩ := ih
    exact debug_stepC hk hs

theorem exactRelease_step {u v : Pool Local Results} (h : (exactRelease s ds total size).Step nT u v) :
    StepR s ds total size nT u.world v.world := by
  have key : ∀ {t : Nat} (_ : t < nT), (u.locals t).pc.kind ≠ .done ∧ (u.locals t).pc.kind ≠ .panicked → ∀ x,
      threadStepR s ds total size (u.locals t) u.world.shared = x →
      StepR s ds total size nT u.world { locals := Function.update u.locals t x.1, shared := x.2 } := by
    intro t ht hk x hx
    subst hx
    exact StepR.thread u.world t ht ⟨fun e => hk.1 (kind_done.2 e), fun e => hk.2 (kind_panicked.2 e)⟩
  cases h with
  | @compute t l ht hk h =>
    have hk' : (u.locals t).pc.kind = .compute := hk
    refine key ht (by rw [hk']; decide) (l, u.world.shared) ?_
    simp only [exactRelease, exactProgram] at h
    unfold threadStepR
    cases e : (u.locals t).pc <;> rw [e] at hk' h <;> first | (exfalso; revert hk'; decide) | skip
    · simp only at h ⊢
      cases e2 : s.processPosR ds (u.locals t).pos ((u.locals t).stats, (u.locals t).hands) with
      | none => rw [e2] at h; simp only at h; subst h; rfl
      | some st =>
        rw [e2] at h
        simp only at h ⊢
        rw [h]
        by_cases h5 : st.1.evalCount ≥ 10000
        · simp only [if_pos h5]
        · simp only [if_neg h5]
    · simp only at h ⊢
      rw [h]
      simp only [Pool.world]
      by_cases h5 : u.stopped = true
      · rw [show (if u.stopped = true then { u.locals t with pc := Pc.final } else (u.locals t).advance) = _ from if_pos h5]
        exact if_pos h5
      · rw [show (if u.stopped = true then { u.locals t with pc := Pc.final } else (u.locals t).advance) = _ from if_neg h5]
        exact if_neg h5
  | @reserve t x ht hk h =>
    have hk' : (u.locals t).pc.kind = .reserve := hk
    refine key ht (by rw [hk']; decide) (x.1, ⟨x.2, u.results, u.stopped, u.sent⟩) ?_
    simp only [exactRelease, exactProgram] at h
    have e : (u.locals t).pc = .reserve := by cases e : (u.locals t).pc <;> rw [e] at hk' <;> first | rfl | (exfalso; revert hk'; decide)
    unfold threadStepR
    rw [e]
    simp only [Pool.world]
    cases h
    rfl
  | reserveFail ht hk h => simp only [exactRelease, exactProgram, Option.map_some] at h; cases h
  | @update t r ht hk h =>
    have hk' : (u.locals t).pc.kind = .update := hk
    refine key ht (by rw [hk']; decide) ((u.locals t).afterUpdate s.nPlayers, ⟨u.pos, r, u.stopped, u.sent ++ [progressExactF u.pos total]⟩) ?_
    have h : some (updateResultsR s.nPlayers (u.locals t).stats (u.locals t).hands u.results) = some r := h
    cases h
    unfold threadStepR Local.afterUpdate
    cases e : (u.locals t).pc <;> rw [e] at hk' <;> first | (exfalso; revert hk'; decide) | rfl
  | updateFail ht hk h => cases h

theorem exactRelease_steps {u v : Pool Local Results} {k : Nat} (h : (exactRelease s ds total size).Steps nT u k v) :
    StepsR s ds total size nT u.world v.world := by
  induction h with
  | refl => exact .refl
  | step _ hs ih => exact .step ih (exactRelease_step hs)
  | cancel _ ih => exact .step ih (.cancel _)

theorem release_stepR {w v : World} {x : Pool Local Results} {k : Nat} (hx : (exactRelease s ds total size).Steps nT x k w.pool)
    (h : StepR s ds total size nT w v) : ∃ k, (exactRelease s ds total size).Steps nT x k v.pool := by
  cases h with
  | cancel => exact ⟨k, .cancel hx⟩
  | thread t ht hpc =>
    refine ⟨k + 1, .step hx ?_⟩
    have key : ∀ x, threadStepR s ds total size (w.locals t) w.shared = x →
        (exactRelease s ds total size).Step nT w.pool
          { locals := Function.update w.locals t x.1, results := x.2.results, pos := x.2.enumPos, stopped := x.2.stopped, sent := x.2.sent } →
        (exactRelease s ds total size).Step nT w.pool (World.pool
          { locals := Function.update w.locals t (threadStepR s ds total size (w.locals t) w.shared).1,
            shared := (threadStepR s ds total size (w.locals t) w.shared).2 }) := by
      intro x hx h; subst hx; exact h
    cases e : (w.locals t).pc with
    | done => exact absurd e hpc.1
    | panicked => exact absurd e hpc.2
    | reserve =>
      have hk : (exactRelease s ds total size).kind (w.pool.locals t) = .reserve := by show (w.locals t).pc.kind = _; rw [e]; rfl
      refine key _ (by unfold threadStepR; rw [e]) ?_
      exact .reserve (x := (_, _)) ht hk rfl
    | work =>
      have hk : (exactRelease s ds total size).kind (w.pool.locals t) = .compute := by show (w.locals t).pc.kind = _; rw [e]; rfl
      cases hf : s.processPosR ds (w.locals t).pos ((w.locals t).stats, (w.locals t).hands) with
      | none =>
        refine key ({ w.locals t with pc := .panicked }, w.shared) (by unfold threadStepR; rw [e]; simp only [hf]) ?_
        refine .compute ht hk ?_
        simp only [exactRelease, exactProgram, World.pool, e, hf]
      | some st =>
        refine key (if st.1.evalCount ≥ 10000 then { w.locals t with pc := .flush, stats := st.1, hands := st.2 }
            else { w.locals t with stats := st.1, hands := st.2 }.advance, w.shared) ?_ ?_
        · unfold threadStepR; rw [e]; simp only [hf]; split <;> simp_all
        · refine .compute ht hk ?_
          simp only [exactRelease, exactProgram, World.pool, e, hf]
    | check =>
      have hk : (exactRelease s ds total size).kind (w.pool.locals t) = .compute := by show (w.locals t).pc.kind = _; rw [e]; rfl
      refine key (if w.shared.stopped then { w.locals t with pc := .final } else (w.locals t).advance, w.shared) ?_ ?_
      · unfold threadStepR; rw [e]; simp only; split <;> rfl
      · refine .compute ht hk ?_
        simp only [exactRelease, exactProgram, World.pool, e]
    | flush =>
      have hk : (exactRelease s ds total size).kind (w.pool.locals t) = .update := by show (w.locals t).pc.kind = _; rw [e]; rfl
      refine key ((w.locals t).afterUpdate s.nPlayers, w.shared.updateR s total (w.locals t)) (by unfold threadStepR Local.afterUpdate; rw [e]) ?_
      exact .update ht hk rfl
    | final =>
      have hk : (exactRelease s ds total size).kind (w.pool.locals t) = .update := by show (w.locals t).pc.kind = _; rw [e]; rfl
      refine key ((w.locals t).afterUpdate s.nPlayers, w.shared.updateR s total (w.locals t)) (by unfold threadStepR Local.afterUpdate; rw [e]) ?_
      exact .update ht hk rfl

theorem release_stepsR {u w : World} (h : StepsR s ds total size nT u w) : ∃ k, (exactRelease s ds total size).Steps nT u.pool k w.pool := by
  induction h with
  | refl => exact ⟨0, .refl⟩
  | step _ hs ih =>
    obtain ⟨k, hk⟩ := ih
    exact release_stepR hk hs

end exact

/-! ## The random simulation -/

def Pool.mcWorld (v : Pool McLocal Results) : McWorld := { locals := v.locals, shared := ⟨v.results, v.stopped, v.sent⟩ }

def McWorld.pool (w : McWorld) : Pool McLocal Results :=
  { locals := w.locals, results := w.shared.results, pos := 0, stopped := w.shared.stopped, sent := w.shared.sent }

theorem mcKind_compute {pc : McPc} (h : pc.kind = .compute) : ¬ (pc = .flush ∨ pc = .final) ∧ pc ≠ .done ∧ pc ≠ .panicked := by
  cases pc <;> first | (exact ⟨by decide, by decide, by decide⟩) | (exfalso; revert h; decide)

theorem mcKind_update {pc : McPc} : pc.kind = .update ↔ pc = .flush ∨ pc = .final := by cases pc <;> decide

section approx
variable {sqrt : ℚ → ℚ} {target : ℚ} {s : Sim} {nT : Nat}

theorem mcStepC_local {l : McLocal} (h1 : ¬ (l.pc = .flush ∨ l.pc = .final)) {g g' : McShared} (hs : g'.stopped = g.stopped) {ds rest : Draws}
    {l' : McLocal} {x : McShared} (h : mcStepC sqrt target s l g ds = .ok (l', x) rest) :
    x = g ∧ mcStepC sqrt target s l g' ds = .ok (l', g') rest := by
  unfold mcStepC at h ⊢
  cases hp : l.pc <;> rw [hp] at h h1 <;> simp only at h ⊢
  case flush => exact absurd (Or.inl rfl) h1
  case final => exact absurd (Or.inr rfl) h1
  case eval => split at h <;> cases h <;> exact ⟨rfl, rfl⟩
  all_goals exact mcStep_local (by rw [hp]; decide) hs h

theorem mcStepR_local {l : McLocal} (h1 : ¬ (l.pc = .flush ∨ l.pc = .final)) {g g' : McShared} (hs : g'.stopped = g.stopped) {ds rest : Draws}
    {l' : McLocal} {x : McShared} (h : mcStepR target s l g ds = .ok (l', x) rest) :
    x = g ∧ mcStepR target s l g' ds = .ok (l', g') rest := by
  unfold mcStepR at h ⊢
  cases hp : l.pc <;> rw [hp] at h h1 <;> simp only at h ⊢
  case flush => exact absurd (Or.inl rfl) h1
  case final => exact absurd (Or.inr rfl) h1
  case eval => split at h <;> cases h <;> exact ⟨rfl, rfl⟩
  all_goals exact mcStep_local (by rw [hp]; decide) hs h

theorem mcStepC_update {l : McLocal} (h : l.pc = .flush ∨ l.pc = .final) (g : McShared) (ds : Draws) :
    mcStepC sqrt target s l g ds = match updateResultsC sqrt s.nPlayers s.calcExact l.stats l.hands g.results with
      | none => .ok ({ l with pc := .panicked }, g) ds
      | some r => .ok (l.afterUpdate s.nPlayers, ⟨r, !l.finished && decide (r.stdev < target) || g.stopped,
          g.sent ++ [progressApprox r.stdev target]⟩) ds := by
  unfold mcStepC McLocal.afterUpdate McShared.updateC McLocal.finished
  rcases h with h | h <;> rw [h] <;>
    cases updateResultsC sqrt s.nPlayers s.calcExact l.stats l.hands g.results <;> simp

theorem mcStepR_update {l : McLocal} (h : l.pc = .flush ∨ l.pc = .final) (g : McShared) (ds : Draws) :
    mcStepR target s l g ds =
      let r := updateBatchR s.nPlayers l.stats l.hands g.results
      let d := devF (varianceF r.batchSum r.batchSum2 r.batchCount) r.batchCount
      .ok (l.afterUpdate s.nPlayers, ⟨r, !l.finished && d.any (· < target) || g.stopped, g.sent ++ [progF target d]⟩) ds := by
  unfold mcStepR McLocal.afterUpdate McShared.updateR McLocal.finished
  rcases h with h | h <;> rw [h] <;> simp

theorem approxDebug_step {u v : Pool McLocal Results} (h : (approxDebug sqrt target s).Step nT u v) :
    McStepC sqrt target s nT u.mcWorld v.mcWorld := by
  cases h with
  | @compute t l ht hk h =>
    obtain ⟨g, ds, g', e, h⟩ := h
    obtain ⟨k1, k2⟩ := mcKind_compute hk
    exact McStepC.thread u.mcWorld t ht k2 ds l u.mcWorld.shared (mcStepC_local k1 e.symm h).2
  | @reserve t x ht hk h => exact absurd hk (by show (u.locals t).pc.kind ≠ _; cases (u.locals t).pc <;> decide)
  | @reserveFail t ht hk h => exact absurd hk (by show (u.locals t).pc.kind ≠ _; cases (u.locals t).pc <;> decide)
  | @update t r ht hk h =>
    have hk := mcKind_update.1 hk
    have h : updateResultsC sqrt s.nPlayers s.calcExact (u.locals t).stats (u.locals t).hands u.results = some r := h
    refine McStepC.thread u.mcWorld t ht (by rcases hk with e | e <;> (show (u.locals t).pc ≠ .done ∧ (u.locals t).pc ≠ .panicked; rw [e]; decide)) [] _ _ ?_
    show mcStepC sqrt target s (u.locals t) _ [] = _
    rw [mcStepC_update hk]
    simp only [Pool.mcWorld, h]
    rfl
  | @updateFail t ht hk h =>
    have hk := mcKind_update.1 hk
    have h : updateResultsC sqrt s.nPlayers s.calcExact (u.locals t).stats (u.locals t).hands u.results = none := h
    refine McStepC.thread u.mcWorld t ht (by rcases hk with e | e <;> (show (u.locals t).pc ≠ .done ∧ (u.locals t).pc ≠ .panicked; rw [e]; decide)) [] _ _ ?_
    show mcStepC sqrt target s (u.locals t) _ [] = _
    rw [mcStepC_update hk]
    simp only [Pool.mcWorld, h]
    rfl

theorem approxDebug_steps {u v : Pool McLocal Results} {k : Nat} (h : (approxDebug sqrt target s).Steps nT u k v) :
    McStepsC sqrt target s nT u.mcWorld v.mcWorld := by
  induction h with
  | refl => exact .refl
  | step _ hs ih => exact .step ih (approxDebug_step hs)
  | cancel _ ih => exact .step ih (.cancel _)

theorem mcKind_cases {pc : McPc} (h : pc ≠ .done ∧ pc ≠ .panicked) : pc.kind = .compute ∨ pc.kind = .update := by
  cases pc <;> simp_all [McPc.kind]

theorem debug_mcStepsC {u w : McWorld} (h : McStepsC sqrt target s nT u w) : ∃ k, (approxDebug sqrt target s).Steps nT u.pool k w.pool := by
  induction h with
  | refl => exact ⟨0, .refl⟩
  | step _ hs ih =>
    obtain ⟨k, hk⟩ := ih
    cases hs with
    | cancel => exact ⟨k, .cancel hk⟩
    | thread t ht hpc ds l g h =>
      rename_i w _
      refine ⟨k + 1, .step hk ?_⟩
      rcases mcKind_cases hpc with hc | hc
      · obtain ⟨k1, k2⟩ := mcKind_compute hc
        obtain ⟨rfl, _⟩ := mcStepC_local (g' := w.shared) k1 rfl h
        exact .compute ht hc ⟨w.shared, ds, w.shared, rfl, h⟩
      · have hc' := mcKind_update.1 hc
        rw [mcStepC_update hc'] at h
        cases hf : updateResultsC sqrt s.nPlayers s.calcExact (w.locals t).stats (w.locals t).hands w.shared.results with
        | none => rw [hf] at h; cases h; exact .updateFail ht hc hf
        | some r => rw [hf] at h; cases h; exact .update ht hc hf

theorem approxRelease_step {u v : Pool McLocal Results} (h : (approxRelease target s).Step nT u v) :
    McStepR target s nT u.mcWorld v.mcWorld := by
  cases h with
  | @compute t l ht hk h =>
    obtain ⟨g, ds, g', e, h⟩ := h
    obtain ⟨k1, k2⟩ := mcKind_compute hk
    exact McStepR.thread u.mcWorld t ht k2 ds l u.mcWorld.shared (mcStepR_local k1 e.symm h).2
  | @reserve t x ht hk h => exact absurd hk (by show (u.locals t).pc.kind ≠ _; cases (u.locals t).pc <;> decide)
  | @reserveFail t ht hk h => exact absurd hk (by show (u.locals t).pc.kind ≠ _; cases (u.locals t).pc <;> decide)
  | @update t r ht hk h =>
    have hk := mcKind_update.1 hk
    have h : some (updateBatchR s.nPlayers (u.locals t).stats (u.locals t).hands u.results) = some r := h
    cases h
    refine McStepR.thread u.mcWorld t ht (by rcases hk with e | e <;> (show (u.locals t).pc ≠ .done ∧ (u.locals t).pc ≠ .panicked; rw [e]; decide)) [] _ _ ?_
    show mcStepR target s (u.locals t) _ [] = _
    rw [mcStepR_update hk]
    rfl
  | updateFail ht hk h => cases h

theorem approxRelease_steps {u v : Pool McLocal Results} {k : Nat} (h : (approxRelease target s).Steps nT u k v) :
    McStepsR target s nT u.mcWorld v.mcWorld := by
  induction h with
  | refl => exact .refl
  | step _ hs ih => exact .step ih (approxRelease_step hs)
  | cancel _ ih => exact .step ih (.cancel _)

theorem release_mcStepsR {u w : McWorld} (h : McStepsR target s nT u w) : ∃ k, (approxRelease target s).Steps nT u.pool k w.pool := by
  induction h with
  | refl => exact ⟨0, .refl⟩
  | step _ hs ih =>
    obtain ⟨k, hk⟩ := ih
    cases hs with
    | cancel => exact ⟨k, .cancel hk⟩
    | thread t ht hpc ds l g h =>
      rename_i w _
      refine ⟨k + 1, .step hk ?_⟩
      rcases mcKind_cases hpc with hc | hc
      · obtain ⟨k1, k2⟩ := mcKind_compute hc
        obtain ⟨rfl, _⟩ := mcStepR_local (g' := w.shared) k1 rfl h
        exact .compute ht hc ⟨w.shared, ds, w.shared, rfl, h⟩
      · have hc' := mcKind_update.1 hc
        rw [mcStepR_update hc'] at h
        cases h
        exact .update ht hc rfl

end approx

end Pokers
