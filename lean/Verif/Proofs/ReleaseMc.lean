import Verif.Proofs.ReleaseRun
import Verif.Proofs.FloatMc
import Verif.Model.ReleaseMc
/-!
# Runs of the random simulation in a release build
-/
namespace Pokers
open Spec CombinedRange

/-! ## The steps that do not count anything -/

/-- The steps in which nothing is evaluated or written to the results. -/
def McPc.Quiet (pc : McPc) : Prop := pc ≠ .eval ∧ pc ≠ .flush ∧ pc ≠ .final

/-- What such a step does: it depends on the walk and on the cancel token only. -/
def quietStep (s : Sim) (pc : McPc) (walk : Walk) (stopped : Bool) (ds : Draws) : Out (McPc × Walk) :=
  match mcStep id 0 s ⟨pc, walk, Batch.init 0, HandStats.init⟩ ⟨Results.init 0, stopped, []⟩ ds with
  | .ok x rest => .ok (x.1.pc, x.1.walk) rest
  | .more => .more
  | .panic => .panic

theorem mcStep_quiet (sqrt : ℚ → ℚ) (tgt : ℚ) (s : Sim) {l : McLocal} (hq : l.pc.Quiet) (g : McShared) (ds : Draws) :
    mcStep sqrt tgt s l g ds = match quietStep s l.pc l.walk g.stopped ds with
      | .ok x rest => .ok ({ l with pc := x.1, walk := x.2 }, g) rest
      | .more => .more
      | .panic => .panic := by
  obtain ⟨pc, walk, stats, hands⟩ := l
  unfold quietStep mcStep
  obtain ⟨h1, h2, h3⟩ := hq
  simp only at h1 h2 h3
  cases pc with
  | start =>
    simp only
    rcases randomizeHoleCards s walk ds with ⟨⟨ok, w⟩, r⟩ | _ | _ <;> rfl
  | eval => exact absurd rfl h1
  | flush => exact absurd rfl h2
  | check => rfl
  | restart =>
    simp only
    rcases randomizeHoleCards s walk ds with ⟨⟨ok, w⟩, r⟩ | _ | _ <;> rfl
  | move =>
    simp only
    rcases sample s.combinedRanges.length ds with ⟨i, r⟩ | _ | _
    · simp only
      rcases s.combinedRanges[i]? with _ | cr
      · rfl
      · simp only
        rcases redeal cr i walk with _ | w <;> rfl
    · rfl
    · rfl
  | final => exact absurd rfl h3
  | done => rfl
  | panicked => rfl

theorem mcStepR_quiet (tgt : ℚ) (s : Sim) {l : McLocal} (hq : l.pc.Quiet) (g : McShared) (ds : Draws) :
    mcStepR tgt s l g ds = mcStep id tgt s l g ds := by
  unfold mcStepR
  obtain ⟨h1, h2, h3⟩ := hq
  cases hpc : l.pc <;> first | rfl | (rw [hpc] at h1 h2 h3; simp at h1 h2 h3)

theorem quiet_or (pc : McPc) : pc = .eval ∨ pc = .flush ∨ pc = .final ∨ pc.Quiet := by
  cases pc <;> simp [McPc.Quiet]

/-! ## One evaluation and one update -/

theorem weightR_eq (w : Walk) : w.weightR = wrap w.weight := by
  unfold Walk.weightR Walk.weight
  refine foldl_rel (R := fun a b => a = wrap b) (List.range MAX_PLAYERS) (fun i _ a b h => ?_) (wrap_of_lt (by decide)).symm
  rw [h, wrap_mul_left]

/-- The states of a thread. -/
structure McLocalMod (l l' : McLocal) : Prop where
  pc : l'.pc = l.pc
  walk : l'.walk = l.walk
  stats : StMod (l.stats, l.hands) (l'.stats, l'.hands)

/-- The shared states, without the cancel token. -/
structure McSharedMod (g g' : McShared) : Prop where
  results : ResMod g.results g'.results
  sent : g'.sent.length = g.sent.length

theorem evalDealR_mod (s : Sim) {l l' : McLocal} (hl : McLocalMod l l') (ds : Draws) :
    (∃ x x' rest, evalDeal s l ds = .ok x rest ∧ evalDealR s l' ds = .ok x' rest ∧ McLocalMod x x') ∨
    (evalDeal s l ds = .more ∧ evalDealR s l' ds = .more) ∨ (evalDeal s l ds = .panic ∧ evalDealR s l' ds = .panic) := by
  unfold evalDeal evalDealR
  rw [hl.walk, weightR_eq]
  rcases subC 5 s.fixedBoard.count with _ | k
  · exact Or.inr (Or.inr ⟨rfl, rfl⟩)
  · simp only
    rcases randomizeBoard k (l.walk.used ||| s.deadMask) s.fixedBoard ds with ⟨board, rest⟩ | _ | _
    · exact Or.inl ⟨_, _, _, rfl, rfl, hl.pc, rfl, evaluateHandsR_mod _ _ _ _ _ _ hl.stats⟩
    · exact Or.inr (Or.inl ⟨rfl, rfl⟩)
    · exact Or.inr (Or.inr ⟨rfl, rfl⟩)

theorem ResMod.ext {r r1 r' r1' : Results} (h : ResMod r r') (h1 : r1.handResults = r.handResults) (h2 : r1.wins = r.wins)
    (h3 : r1.winsByMask = r.winsByMask) (h4 : r1.evalCount = r.evalCount) (h5 : r1.ties = r.ties)
    (h1' : r1'.handResults = r'.handResults) (h2' : r1'.wins = r'.wins)
    (h3' : r1'.winsByMask = r'.winsByMask) (h4' : r1'.evalCount = r'.evalCount) (h5' : r1'.ties = r'.ties) : ResMod r1 r1' := by
  refine ⟨fun k => ?_, fun p => ?_, fun i => ?_, ?_, fun p => ?_, fun k => ?_⟩
  · rw [h1, h1']; exact h.hands k
  · rw [h2, h2']; exact h.wins p
  · rw [h3, h3']; exact h.masks i
  · rw [h4, h4']; exact h.evals
  · rw [h5, h5']; exact h.ties p
  · rw [h1']; exact h.equity k

theorem updateBatchR_mod (sqrt : ℚ → ℚ) (s : Sim) (hex : s.calcExact = false) {b b' : Batch} {hb hb' : HandStats} (h : StMod (b, hb) (b', hb'))
    {r r' : Results} (hr : ResMod r r') :
    ResMod (updateResults sqrt s.nPlayers s.calcExact b hb r) (updateBatchR s.nPlayers b' hb' r') := by
  have h1 := updateResultsR_mod (s := { s with calcExact := true }) rfl h hr
  rw [hex]
  exact h1.ext rfl rfl rfl rfl rfl rfl rfl rfl rfl rfl

theorem McSharedMod.update (sqrt : ℚ → ℚ) (tgt target : ℚ) {s : Sim} (hex : s.calcExact = false) (fin : Bool) {l l' : McLocal}
    (hl : McLocalMod l l') {g g' : McShared} (hg : McSharedMod g g') :
    McSharedMod (g.update sqrt tgt s fin l) (g'.updateR target s fin l') :=
  ⟨updateBatchR_mod sqrt s hex hl.stats hg.results, by simp [McShared.update, McShared.updateR, hg.sent]⟩

/-! ## One step -/

theorem wrap_and (x : Nat) : wrap x &&& 0xfff = x &&& 0xfff := by
  have h : ∀ y : Nat, y &&& 0xfff = y % 4096 := fun y => Nat.and_two_pow_sub_one_eq_mod y 12
  rw [h, h]
  unfold wrap
  omega

theorem eval_pc {a a' : McLocal} (h : McLocalMod a a') :
    McLocalMod { a with pc := if a.stats.evalCount &&& 0xfff = 0 then .flush else .move }
      { a' with pc := if a'.stats.evalCount &&& 0xfff = 0 then .flush else .move } := by
  refine ⟨?_, h.walk, h.stats⟩
  have e : a'.stats.evalCount = wrap a.stats.evalCount := h.stats.evals
  show (if a'.stats.evalCount &&& 0xfff = 0 then McPc.flush else .move) = _
  rw [e, wrap_and]

/-- A step of the release build is a step of the exact model, which may stop for another reason. -/
theorem mcStepR_back (sqrt : ℚ → ℚ) (tgt target : ℚ) {s : Sim} (hex : s.calcExact = false) {l l' : McLocal} {g g' : McShared}
    (hl : McLocalMod l l') (hg : McSharedMod g g') (hs : g'.stopped = g.stopped) {ds : Draws} {x' : McLocal} {y' : McShared}
    (h : mcStepR target s l' g' ds = .ok (x', y') []) :
    ∃ x y, mcStep sqrt tgt s l g ds = .ok (x, y) [] ∧ McLocalMod x x' ∧ McSharedMod y y' ∧
      ((y.stopped = g.stopped ∧ y'.stopped = g'.stopped) ∨ ((l.pc = .flush ∨ l.pc = .final) ∧ ∃ fin, y = g.update sqrt tgt s fin l ∧ y' = g'.updateR target s fin l')) := by
  rcases quiet_or l.pc with hpc | hpc | hpc | hq
  · unfold mcStepR at h
    rw [hl.pc, hpc] at h
    simp only at h
    unfold mcStep
    rw [hpc]
    simp only
    rcases evalDealR_mod s hl ds with ⟨a, a', rest, e1, e2, hm⟩ | ⟨e1, e2⟩ | ⟨e1, e2⟩
    · rw [e2] at h
      rw [e1]
      obtain ⟨h1, h2⟩ := Out.ok.inj h
      obtain ⟨h3, h4⟩ := Prod.mk.inj h1
      subst h2 h3 h4
      exact ⟨_, _, rfl, eval_pc hm, hg, Or.inl ⟨rfl, rfl⟩⟩
    · rw [e2] at h; cases h
    · rw [e2] at h
      rw [e1]
      obtain ⟨h1, h2⟩ := Out.ok.inj h
      obtain ⟨h3, h4⟩ := Prod.mk.inj h1
      subst h3 h4
      exact ⟨_, _, rfl, ⟨rfl, hl.walk, hl.stats⟩, hg, Or.inl ⟨rfl, rfl⟩⟩
  · unfold mcStepR at h
    rw [hl.pc, hpc] at h
    simp only at h
    unfold mcStep
    rw [hpc]
    simp only
    obtain ⟨h1, h2⟩ := Out.ok.inj h
    obtain ⟨h3, h4⟩ := Prod.mk.inj h1
    subst h2 h3 h4
    exact ⟨_, _, rfl, ⟨rfl, hl.walk, init_mod _⟩, hg.update sqrt tgt target hex false hl, Or.inr ⟨Or.inl trivial, _, rfl, rfl⟩⟩
  · unfold mcStepR at h
    rw [hl.pc, hpc] at h
    simp only at h
    unfold mcStep
    rw [hpc]
    simp only
    obtain ⟨h1, h2⟩ := Out.ok.inj h
    obtain ⟨h3, h4⟩ := Prod.mk.inj h1
    subst h2 h3 h4
    exact ⟨_, _, rfl, ⟨rfl, hl.walk, hl.stats⟩, hg.update sqrt tgt target hex true hl, Or.inr ⟨Or.inr trivial, _, rfl, rfl⟩⟩
  · have hq' : l'.pc.Quiet := by rw [hl.pc]; exact hq
    rw [mcStepR_quiet target s hq', mcStep_quiet id target s hq', hl.pc, hl.walk, hs] at h
    rw [mcStep_quiet sqrt tgt s hq]
    generalize quietStep s l.pc l.walk g.stopped ds = q at h ⊢
    rcases q with ⟨a, rest⟩ | _ | _
    · obtain ⟨h1, h2⟩ := Out.ok.inj h
      obtain ⟨h3, h4⟩ := Prod.mk.inj h1
      subst h2 h3 h4
      exact ⟨_, _, rfl, ⟨rfl, rfl, hl.stats⟩, hg, Or.inl ⟨rfl, rfl⟩⟩
    · cases h
    · cases h

/-- A step of the exact model can be made by the release build. -/
theorem mcStepR_forward (sqrt : ℚ → ℚ) (tgt target : ℚ) {s : Sim} (hex : s.calcExact = false) {l l' : McLocal} {g g' : McShared}
    (hl : McLocalMod l l') (hg : McSharedMod g g') (hs : g'.stopped = g.stopped) {ds : Draws} {x : McLocal} {y : McShared}
    (h : mcStep sqrt tgt s l g ds = .ok (x, y) []) :
    ∃ x' y', mcStepR target s l' g' ds = .ok (x', y') [] ∧ McLocalMod x x' ∧ McSharedMod y y' ∧
      (g.stopped = true → y.stopped = true ∧ y'.stopped = true) := by
  have hst : ∀ fin, g.stopped = true → (g.update sqrt tgt s fin l).stopped = true ∧ (g'.updateR target s fin l').stopped = true := by
    intro fin h
    constructor
    · unfold McShared.update; simp only; split
      · rfl
      · exact h
    · unfold McShared.updateR; simp only; split
      · rfl
      · rw [hs]; exact h
  rcases quiet_or l.pc with hpc | hpc | hpc | hq
  · unfold mcStep at h
    rw [hpc] at h
    simp only at h
    unfold mcStepR
    rw [hl.pc, hpc]
    simp only
    rcases evalDealR_mod s hl ds with ⟨a, a', rest, e1, e2, hm⟩ | ⟨e1, e2⟩ | ⟨e1, e2⟩
    · rw [e1] at h
      rw [e2]
      obtain ⟨h1, h2⟩ := Out.ok.inj h
      obtain ⟨h3, h4⟩ := Prod.mk.inj h1
      subst h2 h3 h4
      exact ⟨_, _, rfl, eval_pc hm, hg, fun h => ⟨h, by rw [hs]; exact h⟩⟩
    · rw [e1] at h; cases h
    · rw [e1] at h
      rw [e2]
      obtain ⟨h1, h2⟩ := Out.ok.inj h
      obtain ⟨h3, h4⟩ := Prod.mk.inj h1
      subst h3 h4
      exact ⟨_, _, rfl, ⟨rfl, hl.walk, hl.stats⟩, hg, fun h => ⟨h, by rw [hs]; exact h⟩⟩
  · unfold mcStep at h
    rw [hpc] at h
    simp only at h
    unfold mcStepR
    rw [hl.pc, hpc]
    simp only
    obtain ⟨h1, h2⟩ := Out.ok.inj h
    obtain ⟨h3, h4⟩ := Prod.mk.inj h1
    subst h2 h3 h4
    exact ⟨_, _, rfl, ⟨rfl, hl.walk, init_mod _⟩, hg.update sqrt tgt target hex false hl, hst false⟩
  · unfold mcStep at h
    rw [hpc] at h
    simp only at h
    unfold mcStepR
    rw [hl.pc, hpc]
    simp only
    obtain ⟨h1, h2⟩ := Out.ok.inj h
    obtain ⟨h3, h4⟩ := Prod.mk.inj h1
    subst h2 h3 h4
    exact ⟨_, _, rfl, ⟨rfl, hl.walk, hl.stats⟩, hg.update sqrt tgt target hex true hl, hst true⟩
  · have hq' : l'.pc.Quiet := by rw [hl.pc]; exact hq
    rw [mcStep_quiet sqrt tgt s hq] at h
    rw [mcStepR_quiet target s hq', mcStep_quiet id target s hq', hl.pc, hl.walk, hs]
    generalize quietStep s l.pc l.walk g.stopped ds = q at h ⊢
    rcases q with ⟨a, rest⟩ | _ | _
    · obtain ⟨h1, h2⟩ := Out.ok.inj h
      obtain ⟨h3, h4⟩ := Prod.mk.inj h1
      subst h2 h3 h4
      exact ⟨_, _, rfl, ⟨rfl, rfl, hl.stats⟩, hg, fun h => ⟨h, by rw [hs]; exact h⟩⟩
    · cases h
    · cases h

/-! ## Runs -/

/-- The states of the system. -/
structure McWorldMod (w w' : McWorld) : Prop where
  locals : ∀ t, McLocalMod (w.locals t) (w'.locals t)
  shared : McSharedMod w.shared w'.shared
  stopped : w'.shared.stopped = w.shared.stopped

theorem mcLocalMod_update {f f' : Nat → McLocal} (h : ∀ t, McLocalMod (f t) (f' t)) (t : Nat) {x x' : McLocal} (hx : McLocalMod x x') :
    ∀ u, McLocalMod (Function.update f t x u) (Function.update f' t x' u) := by
  intro u
  by_cases hu : u = t
  · subst hu; rw [Function.update_self, Function.update_self]; exact hx
  · rw [Function.update_of_ne hu, Function.update_of_ne hu]; exact h u

theorem init_mcWorldMod {s : Sim} {r0 : Results} {flag : Nat} (h : startResults s = some (r0, flag)) (cancelled : Bool) :
    McWorldMod (McWorld.init s r0 cancelled) (McWorld.init s r0 cancelled) :=
  ⟨fun _ => ⟨rfl, rfl, init_mod _⟩, ⟨startResults_mod h, rfl⟩, rfl⟩

/-- A run of the release build is accompanied by a run of the exact model, in which the owner of the cancel token sets it when the
release build finds the deviation small enough. -/
theorem McStepsR.follow {s : Sim} (hex : s.calcExact = false) {target : ℚ} {nT : Nat} {u u' v' : McWorld} (hu : McWorldMod u u')
    (hs : McStepsR target s nT u' v') : ∃ v, McSteps (fun _ => 0) 0 s nT u v ∧ McWorldMod v v' := by
  induction hs with
  | refl => exact ⟨u, .refl, hu⟩
  | step _ hstep ih =>
    obtain ⟨v, h1, h2⟩ := ih
    cases hstep with
    | cancel => exact ⟨_, .step h1 (.cancel v), ⟨h2.locals, ⟨h2.shared.results, h2.shared.sent⟩, rfl⟩⟩
    | thread t ht hpc ds x' y' hx =>
      obtain ⟨x, y, e1, e2, e3, e4⟩ := mcStepR_back (fun _ => 0) 0 target hex (h2.locals t) h2.shared h2.stopped hx
      rw [(h2.locals t).pc] at hpc
      have h3 := McSteps.step h1 (McStep.thread v t ht hpc ds x y e1)
      have hl := mcLocalMod_update h2.locals t e2
      have hy : y.stopped = v.shared.stopped := by
        rcases e4 with ⟨h, _⟩ | ⟨_, fin, h, _⟩
        · exact h
        · rw [h]; exact update_zero_stopped s hex fin _ _
      by_cases hst : y'.stopped = y.stopped
      · exact ⟨_, h3, ⟨hl, e3, hst⟩⟩
      · have hy' : y'.stopped = true := by
          rcases e4 with ⟨_, h⟩ | ⟨_, fin, _, h⟩
          · exact absurd (by rw [h, hy, h2.stopped]) hst
          · rw [h] at hst ⊢
            unfold McShared.updateR at hst ⊢
            simp only at hst ⊢
            split
            · rfl
            · rename_i hn
              rw [if_neg hn, hy, h2.stopped] at hst
              exact absurd rfl hst
        exact ⟨_, .step h3 (.cancel _), ⟨hl, ⟨e3.results, e3.sent⟩, hy'⟩⟩

/-- A run of the exact model after the cancel token has been set can be made by the release build. -/
theorem McSteps.followR {s : Sim} (hex : s.calcExact = false) {sqrt : ℚ → ℚ} {tgt : ℚ} (target : ℚ) {nT : Nat} {u u' v : McWorld}
    (hu : McWorldMod u u') (hst : u.shared.stopped = true) (hs : McSteps sqrt tgt s nT u v) :
    ∃ v', McStepsR target s nT u' v' ∧ McWorldMod v v' ∧ v.shared.stopped = true := by
  induction hs with
  | refl => exact ⟨u', .refl, hu, hst⟩
  | step _ hstep ih =>
    obtain ⟨v', h1, h2, h3⟩ := ih
    cases hstep with
    | cancel => exact ⟨_, .step h1 (.cancel v'), ⟨h2.locals, ⟨h2.shared.results, h2.shared.sent⟩, rfl⟩, rfl⟩
    | thread t ht hpc ds x y hx =>
      obtain ⟨x', y', e1, e2, e3, e4⟩ := mcStepR_forward sqrt tgt target hex (h2.locals t) h2.shared h2.stopped hx
      rw [← (h2.locals t).pc] at hpc
      obtain ⟨e5, e6⟩ := e4 h3
      exact ⟨_, .step h1 (.thread v' t ht hpc ds x' y' e1), ⟨mcLocalMod_update h2.locals t e2, e3, by rw [e5, e6]⟩, e5⟩

theorem McStepsR.trans {s : Sim} {target : ℚ} {nT : Nat} {u v w : McWorld} (h : McStepsR target s nT u v) (h' : McStepsR target s nT v w) :
    McStepsR target s nT u w := by
  induction h' with
  | refl => exact h
  | step _ hs ih => exact .step ih hs

end Pokers
