import Verif.Proofs.McChoice
import Verif.Proofs.FloatStop
/-!
# Runs of the random simulation with floating-point numbers that nobody cancels, with given boards
-/
namespace Pokers
open Spec
open CombinedRange

section
variable {prog : Option ℚ → Nat} {ranges : List (List Combo)} {b d : Nat} {s : Sim} {r0 : Results} {nT : Nat} {T : ℚ}

/-- A run of `approx_equity` (src/equity_calculator/simulator.rs:175-256) with floating-point numbers in which nobody but the threads sets the
token. -/
def ApproxAloneF (dev : ℚ → ℚ → Option ℚ) (prog : Option ℚ → Nat) (ranges : List (List Combo)) (boardMask deadMask nThreads : Nat)
    (target : ℚ) (r : Results) (sent : List Nat) : Prop :=
  ∃ s r0 flag w, PrepareApprox ranges boardMask deadMask (.ok s) ∧ startResults s = some (r0, flag) ∧
    ThreadStepsF dev prog target s nThreads (McWorld.init s r0 false) w ∧ (∀ t < nThreads, (w.locals t).pc = .done) ∧
    r = finishResultsF s flag w.shared.results ∧ sent = w.shared.sent

theorem ApproxAloneF.run {dev : ℚ → ℚ → Option ℚ} {r : Results} {sent : List Nat} (h : ApproxAloneF dev prog ranges b d nT T r sent) :
    ApproxEquityF dev prog ranges b d nT T false (.ok r) sent := by
  obtain ⟨s, r0, flag, w, h1, h2, h3, h4, h5, h6⟩ := h
  exact ⟨.ok s, h1, r0, flag, w, h2, h3.steps, h4, by rw [h5], h6⟩

/-- The states of the exact model that belong to a run of the floating-point model that nobody cancels. -/
def Accompanied (prog : Option ℚ → Nat) (T : ℚ) (s : Sim) (nT : Nat) (r0 : Results) (v : McWorld) : Prop :=
  McSteps (fun _ => 0) 1 s nT (McWorld.init s r0 false) v ∧
    ∃ w, ThreadStepsF devF prog T s nT (McWorld.init s r0 false) w ∧ McWorldClose s.nPlayers v w ∧ FirstBatch prog w.shared

theorem accompanied_closed (hr : McReady ranges b d s) (h1 : s.combinedRanges.length = 1) {flag : Nat} (hst : startResults s = some (r0, flag))
    (hT : 1 / 31622 ≤ T) : ThreadClosed (fun _ => 0) 1 s nT (McWorld.init s r0 false) (Accompanied prog T s nT r0) := by
  obtain ⟨e1, _, _, _, hce, e2, _⟩ := hr.fields
  refine ⟨fun h => h.1, fun {v t} ht hpc ds l g h hv => ?_⟩
  obtain ⟨g1, w, g2, g3, g4⟩ := hv
  obtain ⟨x', y', h2⟩ := mcStepF_exists (by omega) devF prog T w.shared (g3.locals t) h
  have hpc' := hpc
  rw [← (g3.locals t).pc] at hpc'
  obtain ⟨x, y, k1, k2, k3⟩ := follow_one_step hr h1 hst hT g2.steps g1 g3 g4 ht hpc' h2
  rw [h] at k1
  obtain ⟨k4, _⟩ := Out.ok.inj k1
  obtain ⟨rfl, rfl⟩ := Prod.mk.inj k4
  exact ⟨.step g1 (.thread v t ht hpc ds _ _ h), _, .thread t ht hpc' ds x' y' h2 g2, k2, k3⟩

theorem update_one_stopped (hex : s.calcExact = false) (l : McLocal) (g : McShared) : (g.update (fun _ => 0) 1 s false l).stopped = true := by
  unfold McShared.update
  simp only
  have : (updateResults (fun _ => 0) s.nPlayers s.calcExact l.stats l.hands g.results).stdev < 1 := by
    unfold updateResults
    rw [hex]
    simp
  simp [this]

/-- With a single combined range and a target that is not below `1 / 31622`: for any boards there are runs that nobody cancels in which these
boards are evaluated, in the order given by the deals. -/
theorem exists_choiceF (prog : Option ℚ → Nat) (hwf : ∀ r ∈ ranges, WfRange r) (hb : CardMask b) (hd : CardMask d)
    (h1 : (fromRanges (ranges.map fun h => removeConflictingCombos h b d)).length = 1) {s : Sim} (hp : PrepareApprox ranges b d (.ok s))
    (hne : deals (specRanges ranges) (maskCards b ++ maskCards d) ≠ []) (hT : 1 / 31622 ≤ T)
    (nT : Nat) (f : Nat → Nat → List WHand → List Nat)
    (hf : ∀ t i, ∀ dd ∈ deals (specRanges ranges) (maskCards b ++ maskCards d), f t i dd ∈ boards (maskCards b) (maskCards d) dd) :
    ∃ r r' sent' flag r0 hist, ∃ ds : Nat → List (List WHand), ApproxAloneF devF prog ranges b d nT T r' sent' ∧ sent'.length = 2 * nT ∧
      (∀ t, t < nT → (ds t).length = 4096 ∧ ∀ dd ∈ ds t, dd ∈ deals (specRanges ranges) (maskCards b ++ maskCards d)) ∧
      McRun (fun _ => 0) ranges b d r s flag r0 hist ((List.range nT).flatMap fun t => withBoards (f t) (ds t)) ∧
      OutClose ranges.length r r' := by
  have h : McReady ranges b d s := ⟨hwf, hb, hd, hp⟩
  obtain ⟨s0, hs0, _, hs⟩ := h.exact
  have ha := prepareExact_ok hs0
  obtain ⟨r0, flag, hst⟩ := start_some_of (d := d) hwf (s := s) h.fields.2.1 h.fields.2.2.2.2.2.2.2.2.2 (by rw [hs, ha.sim]; rfl)
  have hex : s.calcExact = false := by rw [hs]
  have hR := accompanied_closed (prog := prog) (nT := nT) h (by rw [h.crs_length, h1]) hst hT
  obtain ⟨x, hx⟩ := h.legal hne
  have h0 : Accompanied prog T s nT r0 (McWorld.init s r0 false) :=
    ⟨.refl, _, .refl, init_mcWorldClose hst false, fun _ => start_noBatch hst, fun _ => rfl, fun h => absurd rfl h⟩
  obtain ⟨v, hist, ds, ⟨_, w, k1, k2, _⟩, k4, k5, k6, k7⟩ :=
    choice_main h hR h0 (fun t => rfl) rfl rfl (fun l => update_one_stopped hex l _) (fun _ => hx) (mv := fun _ => List.replicate 4095 0)
      (fun _ => List.length_replicate ..) (fun _ i hi => by rw [List.eq_of_mem_replicate hi]; exact h.nonempty) f hf
  refine ⟨_, _, _, flag, r0, hist, ds, ⟨s, r0, flag, w, hp, hst, k1, fun t ht => ?_, rfl, rfl⟩, ?_, fun t ht => ⟨(k6 t ht).1, (k6 t ht).2.1⟩, k7 flag hst,
    finish_close (k7 flag hst).calc k2.shared.results k2.shared.fresh⟩
  · rw [(k2.locals t).pc]; exact k4 t ht
  · rw [k2.shared.sent]; exact k5

end
end Pokers
