import Verif.Proofs.BuildEnds
/-! A random simulation with locks, in either build, that has been cancelled ends after a bounded number of steps. -/
open Finset
namespace Pokers

/-- How many evaluations are left until the next batch is complete. -/
def evalsLeft (c : Nat) : Nat := 4096 - c % 4096

/-- An upper bound for the number of steps of a thread after the token has been set. -/
def cancelMeasure (l : McLocal) : Nat :=
  match l.pc with
  | .start => 50 + 20 * 4096
  | .eval => 30 + 20 * evalsLeft l.stats.evalCount
  | .flush => 30
  | .check => 20
  | .restart => 50 + 20 * 4096
  | .move => 40 + 20 * evalsLeft l.stats.evalCount
  | .final => 10
  | .done => 0
  | .panicked => 0

theorem cancelMeasure_le (l : McLocal) : cancelMeasure l ≤ 82000 := by
  unfold cancelMeasure evalsLeft
  split <;> omega

theorem evalsLeft_next {c c' : Nat} (h : c' % 4096 = (c + 1) % 4096) :
    (if c' &&& 0xfff = 0 then 30 else 40 + 20 * evalsLeft c') < 30 + 20 * evalsLeft c := by
  have e : c' &&& 0xfff = c' % 4096 := Nat.and_two_pow_sub_one_eq_mod c' 12
  rw [e, h]
  unfold evalsLeft
  split
  · omega
  · rw [h]; omega

section
variable {sqrt : ℚ → ℚ} {target : ℚ} {s : Sim}

theorem evaluateHandsC_evals {n len : Nat} {hands : Nat → Hand} {weight : Nat} {board : Hand} {lookup : Nat → Nat} {flush : Bool}
    {st st' : Batch × HandStats} (h : evaluateHandsC n len hands weight board lookup flush st = some st') :
    st'.1.evalCount = st.1.evalCount + 1 := by
  unfold evaluateHandsC at h
  simp only [Option.bind_eq_bind, Option.bind_eq_some_iff, Option.some.injEq] at h
  obtain ⟨_, _, _, _, _, _, e, he, h⟩ := h
  rw [← h]
  unfold fits at he
  split at he
  · cases he; rfl
  · cases he

theorem evalDealC_evals {l l' : McLocal} {ds rest : Draws} (h : evalDealC s l ds = .ok l' rest) :
    l'.stats.evalCount = l.stats.evalCount + 1 ∧ l'.pc = l.pc := by
  unfold evalDealC at h
  repeat' split at h
  all_goals first
    | (cases h; done)
    | (rename_i hst; cases h; exact ⟨evaluateHandsC_evals hst, rfl⟩)

theorem evalDealR_evals {l l' : McLocal} {ds rest : Draws} (h : evalDealR s l ds = .ok l' rest) :
    l'.stats.evalCount = (l.stats.evalCount + 1) % 2 ^ 64 := by
  unfold evalDealR at h
  repeat' split at h
  all_goals first
    | (cases h; done)
    | (cases h; rfl)

theorem mcStep_measure {l l' : McLocal} {g g' : McShared} {ds rest : Draws} (hk : l.pc.kind = .compute) (hne : l.pc ≠ .eval)
    (hg : g.stopped = true) (hs : mcStep sqrt target s l g ds = .ok (l', g') rest) : cancelMeasure l' < cancelMeasure l := by
  have hc : cancelMeasure l = match l.pc with
    | .start => 50 + 20 * 4096
    | .eval => 30 + 20 * evalsLeft l.stats.evalCount
    | .flush => 30
    | .check => 20
    | .restart => 50 + 20 * 4096
    | .move => 40 + 20 * evalsLeft l.stats.evalCount
    | .final => 10
    | .done => 0
    | .panicked => 0 := rfl
  rw [hc]
  have hle : evalsLeft l.stats.evalCount ≤ 4096 := by unfold evalsLeft; omega
  unfold mcStep at hs
  cases e : l.pc <;> rw [e] at hs hk hne <;> first | (exfalso; revert hk; decide) | (exact absurd rfl hne) | skip
  all_goals
    simp only at hs ⊢
    repeat' split at hs
    all_goals first
      | (cases hs; done)
      | (rename_i h; rw [hg] at h; exact absurd rfl h)
      | (cases hs; simp only [cancelMeasure]; omega)

theorem mcStepC_measure {l l' : McLocal} {g g' : McShared} {ds rest : Draws} (hk : l.pc.kind = .compute) (hg : g.stopped = true)
    (hs : mcStepC sqrt target s l g ds = .ok (l', g') rest) : cancelMeasure l' < cancelMeasure l := by
  unfold mcStepC at hs
  cases e : l.pc <;> rw [e] at hs <;> simp only at hs
  case flush => rw [e] at hk; cases hk
  case final => rw [e] at hk; cases hk
  case eval =>
    split at hs
    · rename_i l1 _ h1
      cases hs
      have := evalsLeft_next (c := l.stats.evalCount) (c' := l1.stats.evalCount) (by rw [(evalDealC_evals h1).1])
      unfold cancelMeasure
      rw [e]
      simp only
      split at this
      · rename_i h; simp only [h, if_true]; exact this
      · rename_i h; simp only [h, if_false]; exact this
    · cases hs
    · cases hs; unfold cancelMeasure; rw [e]; simp only; omega
  all_goals exact mcStep_measure hk (by rw [e]; decide) hg hs

theorem mcStepR_measure {l l' : McLocal} {g g' : McShared} {ds rest : Draws} (hk : l.pc.kind = .compute) (hg : g.stopped = true)
    (hs : mcStepR target s l g ds = .ok (l', g') rest) : cancelMeasure l' < cancelMeasure l := by
  unfold mcStepR at hs
  cases e : l.pc <;> rw [e] at hs <;> simp only at hs
  case flush => rw [e] at hk; cases hk
  case final => rw [e] at hk; cases hk
  case eval =>
    split at hs
    · rename_i l1 _ h1
      cases hs
      have := evalsLeft_next (c := l.stats.evalCount) (c' := l1.stats.evalCount) (by rw [evalDealR_evals h1]; omega)
      unfold cancelMeasure
      rw [e]
      simp only
      split at this
      · rename_i h; simp only [h, if_true]; exact this
      · rename_i h; simp only [h, if_false]; exact this
    · cases hs
    · cases hs; unfold cancelMeasure; rw [e]; simp only; omega
  all_goals exact mcStep_measure hk (by rw [e]; decide) hg hs

end

/-- How far a thread is in `update_results`. -/
def Place.drop : Place → Nat
  | .outside => 0
  | .reserving => 0
  | .merging => 1
  | .merged => 2
  | .reading => 2
  | .computed _ => 2
  | .sending _ => 3
  | .sent => 4
  | .leaving => 5

def cancelRank (w : LockPool McLocal Results) (t : Nat) : Nat := cancelMeasure (w.locals t) - (w.places t).drop

section
variable {n nT : Nat} {step : McLocal → McShared → Draws → Out (McLocal × McShared)}
  {merge : Batch → HandStats → Results → Option Results} {progress : Results → Nat} {below : Results → Bool}

theorem move_cancelRank (hstep : ∀ l g ds l' g', l.pc.kind = .compute → g.stopped = true → step l g ds = .ok (l', g') [] →
      cancelMeasure l' < cancelMeasure l) {w v : LockPool McLocal Results} {t : Nat}
    (hI : PoolInv (approxProgram n step merge progress below) nT w) (hw : w.stopped = true)
    (hm : (approxProgram n step merge progress below).Move t w v) : v.stopped = true ∧ cancelRank v t < cancelRank w t := by
  have hup : ∀ {l : McLocal}, l.pc.kind = .update → 10 ≤ cancelMeasure l ∧ cancelMeasure (l.afterUpdate n) + 5 < cancelMeasure l := by
    intro l h
    rcases mcKind_update.1 h with h | h <;> simp [cancelMeasure, McLocal.afterUpdate, h]
  have hup' : (w.places t).holdsRes = true → _ := fun h => hup (l := w.locals t) (hI.update t h)
  have pan : 0 < cancelRank w t → cancelRank (w.panic (approxProgram n step merge progress below) t) t < cancelRank w t := by
    intro h
    have : cancelRank (w.panic (approxProgram n step merge progress below) t) t = 0 := by
      unfold cancelRank
      simp only [LockPool.panic, Function.update_self, approxProgram, cancelMeasure, Nat.zero_sub]
    omega
  cases hm with
  | compute hp hk hc =>
    obtain ⟨g, ds, g', hg, hc⟩ := hc
    refine ⟨hw, ?_⟩
    unfold cancelRank
    simp only [hp, Function.update_self, Place.drop, Nat.sub_zero]
    exact hstep _ _ _ _ _ hk (hg.trans hw) hc
  | lockPos hp hk => exfalso; revert hk; show (w.locals t).pc.kind ≠ .reserve; cases (w.locals t).pc <;> decide
  | badPos hp hk => exfalso; revert hk; show (w.locals t).pc.kind ≠ .reserve; cases (w.locals t).pc <;> decide
  | reserve hp hc => cases hc
  | reserveFail hp =>
    exfalso; have hk := hI.reserve t hp; revert hk; show (w.locals t).pc.kind ≠ .reserve; cases (w.locals t).pc <;> decide
  | lockRes hp hk =>
    have := (hup (l := w.locals t) hk).1
    refine ⟨hw, ?_⟩
    unfold cancelRank
    simp only [hp, Function.update_self, Place.drop]; omega
  | badRes hp hk =>
    have := (hup (l := w.locals t) hk).1
    refine ⟨hw, pan ?_⟩
    unfold cancelRank; rw [hp]; simp only [Place.drop]; omega
  | merge hp =>
    have := (hup' (by rw [hp]; rfl)).1
    refine ⟨hw, ?_⟩
    unfold cancelRank
    simp only [hp, Function.update_self, Place.drop]; omega
  | mergeFail r hp =>
    have := (hup' (by rw [hp]; rfl)).1
    exact ⟨hw, pan (by unfold cancelRank; rw [hp]; simp only [Place.drop]; omega)⟩
  | lockRead _ hu => cases hu
  | badRead _ hu => cases hu
  | read hp => cases hI.uses t (Or.inl hp)
  | unlockRead hp => cases hI.uses t (Or.inr ⟨_, hp⟩)
  | progress hp =>
    have := (hup' (by rw [hp]; rfl)).1
    refine ⟨hw, ?_⟩
    unfold cancelRank
    simp only [hp, Function.update_self, Place.drop]; omega
  | send hp =>
    have := (hup' (by rw [hp]; rfl)).1
    refine ⟨hw, ?_⟩
    unfold cancelRank
    simp only [hp, Function.update_self, Place.drop]; omega
  | stop hp =>
    have := (hup' (by rw [hp]; rfl)).1
    refine ⟨by simp [hw], ?_⟩
    unfold cancelRank
    simp only [hp, Function.update_self, Place.drop]; omega
  | leave hp =>
    have := (hup' (by rw [hp]; rfl)).2
    refine ⟨hw, ?_⟩
    unfold cancelRank
    simp only [hp, Function.update_self, Place.drop, approxProgram]; omega

theorem cancelled_run (hstep : ∀ l g ds l' g', l.pc.kind = .compute → g.stopped = true → step l g ds = .ok (l', g') [] →
      cancelMeasure l' < cancelMeasure l) {w v : LockPool McLocal Results} {k : Nat}
    (hI : PoolInv (approxProgram n step merge progress below) nT w) (hw : w.stopped = true)
    (h : LockRun (approxProgram n step merge progress below) nT w k v) :
    v.stopped = true ∧ k + ∑ t ∈ range nT, cancelRank v t ≤ ∑ t ∈ range nT, cancelRank w t := by
  induction h with
  | refl => exact ⟨hw, by omega⟩
  | step hr ht hm ih =>
    rename_i k u x t
    obtain ⟨h1, h2⟩ := ih
    obtain ⟨g1, g2⟩ := move_cancelRank hstep (hI.run (approxProgram_lawful _ _ _ _ _) hr) h1 hm
    refine ⟨g1, ?_⟩
    have e : ∑ y ∈ (range nT).erase t, cancelRank x y = ∑ y ∈ (range nT).erase t, cancelRank u y :=
      Finset.sum_congr rfl fun y hy => by
        unfold cancelRank
        rw [(move_others hm (Finset.ne_of_mem_erase hy)).1, (move_others hm (Finset.ne_of_mem_erase hy)).2]
    have e1 := Finset.add_sum_erase (range nT) (cancelRank x) (Finset.mem_range.2 ht)
    have e2 := Finset.add_sum_erase (range nT) (cancelRank u) (Finset.mem_range.2 ht)
    omega
  | cancel _ ih => exact ⟨rfl, ih.2⟩

/-- A call that has been cancelled ends after a bounded number of steps. -/
theorem cancelled_call (hstep : ∀ l g ds l' g', l.pc.kind = .compute → g.stopped = true → step l g ds = .ok (l', g') [] →
      cancelMeasure l' < cancelMeasure l) {l : McLocal} {r : Results} {cancelled : Bool} {cb : CallbackP} {i k : Nat} {x y : Call McLocal Results}
    (hx : Call.Steps (approxProgram n step merge progress below) nT cb (Call.init l r cancelled) i x) (hs : x.threads.stopped = true)
    (hy : Call.Steps (approxProgram n step merge progress below) nT cb x k y) :
    k ≤ 164000 * nT + (x.threads.sent.length - x.calls.length) := by
  have hP := approxProgram_lawful n step merge progress below
  obtain ⟨j0, h0, hpre, _, _⟩ := hx.run
  have hI : PoolInv (approxProgram n step merge progress below) nT x.threads := (PoolInv.init l r cancelled).run hP h0
  have key : ∃ j, LockRun (approxProgram n step merge progress below) nT x.threads j y.threads ∧
      y.calls.length ≤ y.threads.sent.length ∧ y.threads.sent.length ≤ x.threads.sent.length + j ∧ k + x.calls.length = j + y.calls.length := by
    induction hy with
    | refl => exact ⟨0, .refl, hpre.length_le, by omega, by omega⟩
    | step _ hs ih =>
      obtain ⟨j, h1, h2, h3, h4⟩ := ih
      cases hs with
      | thread ht hm =>
        refine ⟨j + 1, .step h1 ht hm, ?_, ?_, by simp only; omega⟩
        · rcases move_sent hm with e | ⟨m, e⟩ <;> simp only [e, List.length_append, List.length_singleton] <;> omega
        · rcases move_sent hm with e | ⟨m, e⟩ <;> simp only [e, List.length_append, List.length_singleton] <;> omega
      | @receive m b hf hm hc =>
        refine ⟨j, ?_, ?_, h3, by simp only [List.length_append, List.length_singleton]; omega⟩
        · cases b with
          | true => exact .cancel h1
          | false => exact h1
        · have := (List.getElem?_eq_some_iff.1 hm).1
          simp only [List.length_append, List.length_singleton]; omega
      | raise hf hm hc =>
        have := (List.getElem?_eq_some_iff.1 hm).1
        exact ⟨j, h1, by simp only [List.length_append, List.length_singleton]; omega, h3, by simp only [List.length_append, List.length_singleton]; omega⟩
    | cancel _ ih =>
      obtain ⟨j, h1, h2, h3, h4⟩ := ih
      exact ⟨j, .cancel h1, h2, h3, h4⟩
  obtain ⟨j, h1, h2, h3, h4⟩ := key
  obtain ⟨_, h5⟩ := cancelled_run hstep hI hs h1
  have h6 : ∑ t ∈ range nT, cancelRank x.threads t ≤ ∑ _t ∈ range nT, 82000 :=
    Finset.sum_le_sum fun t _ => (Nat.sub_le _ _).trans (cancelMeasure_le _)
  rw [Finset.sum_const, Finset.card_range, smul_eq_mul] at h6
  have := hpre.length_le
  omega

end
end Pokers
