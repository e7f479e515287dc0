import Verif.Proofs.FloatRun
/-!
# Runs of the random simulation with floating-point numbers

A run of the exact model that is cancelled from the beginning can be repeated with floating-point numbers: the standard deviation does
not matter then.
-/
namespace Pokers
open Spec

theorem evalDeal_forward {s : Sim} (h9 : s.nPlayers ≤ 9) {l l' x : McLocal} (hl : McLocalClose s.nPlayers l l') {ds rest : Draws}
    (h : evalDeal s l ds = .ok x rest) : ∃ x', evalDealF s l' ds = .ok x' rest ∧ McLocalClose s.nPlayers x x' := by
  unfold evalDeal at h
  unfold evalDealF
  rw [hl.walk]
  cases hk : subC 5 s.fixedBoard.count with
  | none => rw [hk] at h; cases h
  | some k =>
    rw [hk] at h
    simp only at h ⊢
    cases hb : randomizeBoard k (l.walk.used ||| s.deadMask) s.fixedBoard ds with
    | more => rw [hb] at h; cases h
    | panic => rw [hb] at h; cases h
    | ok board ds' =>
      rw [hb] at h
      obtain ⟨h1, h2⟩ := Out.ok.inj h
      subst h1 h2
      exact ⟨_, rfl, hl.pc, rfl, evaluateHands_close h9 _ _ _ _ _ hl.stats⟩

theorem evalDeal_panics {s : Sim} {l l' : McLocal} {n : Nat} (hl : McLocalClose n l l') {ds : Draws}
    (h : evalDeal s l ds = .panic) : evalDealF s l' ds = .panic := by
  unfold evalDeal at h
  unfold evalDealF
  rw [hl.walk]
  cases hk : subC 5 s.fixedBoard.count with
  | none => rfl
  | some k =>
    rw [hk] at h
    simp only at h ⊢
    cases hb : randomizeBoard k (l.walk.used ||| s.deadMask) s.fixedBoard ds with
    | more => rw [hb] at h; cases h
    | panic => rfl
    | ok board ds' => rw [hb] at h; cases h

theorem McSharedClose.update_stopped {s : Sim} (sqrt : ℚ → ℚ) (tgt : ℚ) (dev : ℚ → ℚ → Option ℚ) (prog : Option ℚ → Nat) (target : ℚ) (fin : Bool)
    {l l' : McLocal} {g g' : McShared} (hl : McLocalClose s.nPlayers l l') (hg : McSharedClose s.nPlayers g g') (hs : g.stopped = true) :
    McSharedClose s.nPlayers (g.update sqrt tgt s fin l) (g'.updateF dev prog target s fin l') ∧ (g.update sqrt tgt s fin l).stopped = true := by
  have h1 := updateResults_close sqrt dev s.calcExact hl.stats hg.results
  have h2 := hg.fresh.update sqrt s.calcExact l.stats l.hands
  have h3 : (g'.updateF dev prog target s fin l').sent.length = (g.update sqrt tgt s fin l).sent.length := by
    simp [McShared.updateF, McShared.update, hg.sent]
  have h4 : (g.update sqrt tgt s fin l).stopped = true := by
    unfold McShared.update; simp only; split
    · rfl
    · exact hs
  have h5 : (g'.updateF dev prog target s fin l').stopped = true := by
    unfold McShared.updateF; simp only; split
    · rfl
    · rw [hg.stopped]; exact hs
  exact ⟨⟨by rw [h4, h5], h1, h2, h3⟩, h4⟩

/-- A step of a thread of the exact model can be made with floating-point numbers, if the threads have been asked to stop. -/
theorem mcStep_forward {s : Sim} (h9 : s.nPlayers ≤ 9) {sqrt : ℚ → ℚ} {tgt : ℚ} (dev : ℚ → ℚ → Option ℚ) (prog : Option ℚ → Nat) (target : ℚ)
    {l l' : McLocal} {g g' : McShared} (hl : McLocalClose s.nPlayers l l') (hg : McSharedClose s.nPlayers g g') (hs : g.stopped = true)
    {ds : Draws} {x : McLocal} {y : McShared} (h : mcStep sqrt tgt s l g ds = .ok (x, y) []) :
    ∃ x' y', mcStepF dev prog target s l' g' ds = .ok (x', y') [] ∧ McLocalClose s.nPlayers x x' ∧ McSharedClose s.nPlayers y y' ∧
      y.stopped = true := by
  unfold mcStepF
  rw [hl.pc]
  unfold mcStep at h ⊢
  rw [hl.pc, hl.walk]
  cases hpc : l.pc with
  | start =>
    rw [hpc] at h
    simp only at h ⊢
    cases hr : randomizeHoleCards s l.walk ds with
    | ok a rest =>
      obtain ⟨ok, w⟩ := a
      rw [hr] at h
      obtain ⟨h1, h2⟩ := Out.ok.inj h
      obtain ⟨h3, h4⟩ := Prod.mk.inj h1
      subst h2 h3 h4
      exact ⟨_, _, rfl, ⟨rfl, rfl, hl.stats⟩, hg, hs⟩
    | more => rw [hr] at h; cases h
    | panic =>
      rw [hr] at h
      obtain ⟨h1, _⟩ := Out.ok.inj h
      obtain ⟨h3, h4⟩ := Prod.mk.inj h1
      subst h3 h4
      exact ⟨_, _, rfl, ⟨rfl, rfl, hl.stats⟩, hg, hs⟩
  | eval =>
    rw [hpc] at h
    simp only at h ⊢
    cases hr : evalDeal s l ds with
    | ok a rest =>
      obtain ⟨b, hb, hc⟩ := evalDeal_forward h9 hl hr
      rw [hr] at h
      rw [hb]
      obtain ⟨h1, h2⟩ := Out.ok.inj h
      obtain ⟨h3, h4⟩ := Prod.mk.inj h1
      subst h2 h3 h4
      have he : b.stats = a.stats := hc.stats.1
      exact ⟨_, _, rfl, ⟨by rw [he], hc.walk, hc.stats⟩, hg, hs⟩
    | more => rw [hr] at h; cases h
    | panic =>
      rw [evalDeal_panics hl hr]
      rw [hr] at h
      obtain ⟨h1, _⟩ := Out.ok.inj h
      obtain ⟨h3, h4⟩ := Prod.mk.inj h1
      subst h3 h4
      exact ⟨_, _, rfl, ⟨rfl, rfl, hl.stats⟩, hg, hs⟩
  | flush =>
    rw [hpc] at h
    simp only at h ⊢
    obtain ⟨h1, h2⟩ := Out.ok.inj h
    obtain ⟨h3, h4⟩ := Prod.mk.inj h1
    subst h2 h3 h4
    exact ⟨_, _, rfl, ⟨rfl, rfl, init_close _⟩, McSharedClose.update_stopped sqrt tgt dev prog target false hl hg hs⟩
  | check =>
    rw [hpc] at h
    simp only at h ⊢
    obtain ⟨h1, h2⟩ := Out.ok.inj h
    obtain ⟨h3, h4⟩ := Prod.mk.inj h1
    subst h2 h3 h4
    exact ⟨_, _, rfl, ⟨by rw [hg.stopped], rfl, hl.stats⟩, hg, hs⟩
  | restart =>
    rw [hpc] at h
    simp only at h ⊢
    cases hr : randomizeHoleCards s l.walk ds with
    | ok a rest =>
      obtain ⟨ok, w⟩ := a
      rw [hr] at h
      obtain ⟨h1, h2⟩ := Out.ok.inj h
      obtain ⟨h3, h4⟩ := Prod.mk.inj h1
      subst h2 h3 h4
      exact ⟨_, _, rfl, ⟨rfl, rfl, hl.stats⟩, hg, hs⟩
    | more => rw [hr] at h; cases h
    | panic =>
      rw [hr] at h
      obtain ⟨h1, _⟩ := Out.ok.inj h
      obtain ⟨h3, h4⟩ := Prod.mk.inj h1
      subst h3 h4
      exact ⟨_, _, rfl, ⟨rfl, rfl, hl.stats⟩, hg, hs⟩
  | move =>
    rw [hpc] at h
    simp only at h ⊢
    cases hr : sample s.combinedRanges.length ds with
    | ok i rest =>
      rw [hr] at h
      simp only at h ⊢
      cases hi : s.combinedRanges[i]? with
      | none =>
        rw [hi] at h
        obtain ⟨h1, h2⟩ := Out.ok.inj h
        obtain ⟨h3, h4⟩ := Prod.mk.inj h1
        subst h2 h3 h4
        exact ⟨_, _, rfl, ⟨rfl, rfl, hl.stats⟩, hg, hs⟩
      | some cr =>
        rw [hi] at h
        simp only at h ⊢
        cases hd : redeal cr i l.walk with
        | none =>
          rw [hd] at h
          obtain ⟨h1, h2⟩ := Out.ok.inj h
          obtain ⟨h3, h4⟩ := Prod.mk.inj h1
          subst h2 h3 h4
          exact ⟨_, _, rfl, ⟨rfl, rfl, hl.stats⟩, hg, hs⟩
        | some w =>
          rw [hd] at h
          obtain ⟨h1, h2⟩ := Out.ok.inj h
          obtain ⟨h3, h4⟩ := Prod.mk.inj h1
          subst h2 h3 h4
          exact ⟨_, _, rfl, ⟨rfl, rfl, hl.stats⟩, hg, hs⟩
    | more => rw [hr] at h; cases h
    | panic =>
      rw [hr] at h
      obtain ⟨h1, _⟩ := Out.ok.inj h
      obtain ⟨h3, h4⟩ := Prod.mk.inj h1
      subst h3 h4
      exact ⟨_, _, rfl, ⟨rfl, rfl, hl.stats⟩, hg, hs⟩
  | final =>
    rw [hpc] at h
    simp only at h ⊢
    obtain ⟨h1, h2⟩ := Out.ok.inj h
    obtain ⟨h3, h4⟩ := Prod.mk.inj h1
    subst h2 h3 h4
    exact ⟨_, _, rfl, ⟨rfl, rfl, hl.stats⟩, McSharedClose.update_stopped sqrt tgt dev prog target true hl hg hs⟩
  | done =>
    rw [hpc] at h
    obtain ⟨h1, h2⟩ := Out.ok.inj h
    obtain ⟨h3, h4⟩ := Prod.mk.inj h1
    subst h2 h3 h4
    exact ⟨_, _, rfl, hl, hg, hs⟩
  | panicked =>
    rw [hpc] at h
    obtain ⟨h1, h2⟩ := Out.ok.inj h
    obtain ⟨h3, h4⟩ := Prod.mk.inj h1
    subst h2 h3 h4
    exact ⟨_, _, rfl, hl, hg, hs⟩

theorem McSteps.forward {s : Sim} (h9 : s.nPlayers ≤ 9) {sqrt : ℚ → ℚ} {tgt : ℚ} (dev : ℚ → ℚ → Option ℚ) (prog : Option ℚ → Nat) (target : ℚ)
    {nT : Nat} {u u' v : McWorld} (hu : McWorldClose s.nPlayers u u') (hs : u.shared.stopped = true) (h : McSteps sqrt tgt s nT u v) :
    ∃ v', McStepsF dev prog target s nT u' v' ∧ McWorldClose s.nPlayers v v' ∧ v.shared.stopped = true := by
  induction h with
  | refl => exact ⟨u', .refl, hu, hs⟩
  | step _ hstep ih =>
    obtain ⟨v', h1, h2, h3⟩ := ih
    cases hstep with
    | cancel => exact ⟨_, .step h1 (.cancel v'), ⟨h2.locals, rfl, h2.shared.results, h2.shared.fresh, h2.shared.sent⟩, rfl⟩
    | thread t ht hpc ds x y hs =>
      obtain ⟨x', y', e1, e2, e3, e4⟩ := mcStep_forward h9 dev prog target (h2.locals t) h2.shared h3 hs
      rw [← (h2.locals t).pc] at hpc
      exact ⟨_, .step h1 (.thread v' t ht hpc ds x' y' e1), ⟨mcLocals_update h2.locals t e2, e3⟩, e4⟩

theorem McStepsF.trans {s : Sim} {dev : ℚ → ℚ → Option ℚ} {prog : Option ℚ → Nat} {target : ℚ} {nT : Nat} {u v w : McWorld}
    (h : McStepsF dev prog target s nT u v) (h' : McStepsF dev prog target s nT v w) : McStepsF dev prog target s nT u w := by
  induction h' with
  | refl => exact h
  | step _ hs ih => exact .step ih hs

/-- A cancelled run of the exact model has a counterpart with floating-point numbers, for every standard deviation and whether the token
is set at the beginning or (immediately) afterwards. -/
theorem approx_follows {ranges : List (List Combo)} {b d nT : Nat} {sqrt : ℚ → ℚ} {tgt : ℚ}
    (hwf : ∀ r ∈ ranges, WfRange r) (hb : CardMask b) (hd : CardMask d) (dev : ℚ → ℚ → Option ℚ) (prog : Option ℚ → Nat)
    (target : ℚ) (cancelled : Bool) {r : Results} {sent : List Nat} (h : ApproxEquity sqrt ranges b d nT tgt true (.ok r) sent) :
    ∃ r' sent', ApproxEquityF dev prog ranges b d nT target cancelled (.ok r') sent' ∧ OutClose ranges.length r r' ∧ sent'.length = sent.length := by
  obtain ⟨p, hp, h⟩ := h
  cases p with
  | error e => cases h.1
  | ok s =>
    obtain ⟨r0, flag, w, h1, h2, h3, h4, h5⟩ := h
    have hr : McReady ranges b d s := ⟨hwf, hb, hd, hp⟩
    obtain ⟨f1, _, _, _, _, _, f7, _⟩ := hr.fields
    obtain ⟨w', hw, hc, _⟩ := McSteps.forward (by omega) dev prog target (init_mcWorldClose h1 true) rfl h2
    have hw' : McStepsF dev prog target s nT (McWorld.init s r0 cancelled) w' := McStepsF.trans (.step .refl (.cancel _)) hw
    have hdone : ∀ t < nT, (w'.locals t).pc = .done := fun t ht => by rw [(hc.locals t).pc]; exact h3 t ht
    refine ⟨finishResultsF s flag w'.shared.results, w'.shared.sent, ⟨_, hp, r0, flag, w', h1, hw', hdone, rfl, rfl⟩, ?_, ?_⟩
    · obtain ⟨hist, Dr, Dl, hi⟩ := McInv.steps hr h2
      injection h4 with h4
      subst h4
      have hrun : McRun sqrt ranges b d (finishResults s flag w.shared.results) s flag r0 hist Dr :=
        ⟨hr, h1, by rw [hi.res], hi.hids, hi.hbatch, hi.hsum, hi.hcount, hi.legalR⟩
      exact finish_close hrun.calc hc.shared.results hc.shared.fresh
    · rw [h5, hc.shared.sent]

end Pokers
