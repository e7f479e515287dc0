import Verif.Proofs.Release
import Verif.Props.Overflow
/-!
# Runs of the release build
-/
namespace Pokers
open Spec CombinedRange

/-! ## Every run of the release build is accompanied by a run of the exact model -/

/-- The states of a thread.  A thread that is not about to write its counters to the results has made less than 10000 evaluations. -/
structure LocalMod (l l' : Local) : Prop where
  pc : l'.pc = l.pc
  pos : l'.pos = l.pos
  stop : l'.stop = l.stop
  stats : StMod (l.stats, l.hands) (l'.stats, l'.hands)
  few : l.pc ≠ .flush → l.stats.evalCount < 10000

/-- The shared states. -/
structure SharedMod (n total : Nat) (g g' : Shared) : Prop where
  pos : g'.enumPos = g.enumPos
  le : g.enumPos ≤ total
  stopped : g'.stopped = g.stopped
  results : ResMod g.results g'.results
  fresh : Fresh n g.results
  sent : SentClose total g.enumPos g.sent g'.sent

/-- The states of the system. -/
structure WorldMod (n total : Nat) (w w' : World) : Prop where
  locals : ∀ t, LocalMod (w.locals t) (w'.locals t)
  shared : SharedMod n total w.shared w'.shared

theorem SharedMod.update {s : Sim} (hex : s.calcExact = true) (total : Nat) {l l' : Local} {g g' : Shared} (hl : LocalMod l l')
    (hg : SharedMod s.nPlayers total g g') : SharedMod s.nPlayers total (g.update s total l) (g'.updateR s total l') :=
  ⟨hg.pos, hg.le, hg.stopped, updateResultsR_mod hex hl.stats hg.results, hg.fresh.update id _ _ _, by
    show SentClose total g.enumPos (g.sent ++ _) (g'.sent ++ [progressExactF g'.enumPos total])
    rw [hg.pos]
    exact hg.sent.snoc⟩

theorem threadStepR_mod {s : Sim} (hex : s.calcExact = true) (ds : List DividerU64) {total size : Nat} (hroom : total + size < 2 ^ 64)
    {l l' : Local} {g g' : Shared} (hl : LocalMod l l') (hg : SharedMod s.nPlayers total g g')
    (hproc : l.pc = .work → ∃ x, s.processPos ds l.pos (l.stats, l.hands) = some x ∧ x.1.evalCount < 2 ^ 64) :
    LocalMod (threadStep s ds total size l g).1 (threadStepR s ds total size l' g').1 ∧
    SharedMod s.nPlayers total (threadStep s ds total size l g).2 (threadStepR s ds total size l' g').2 := by
  unfold threadStepR
  rw [hl.pc]
  unfold threadStep
  cases hpc : l.pc with
  | reserve =>
    have hf := hl.few (by rw [hpc]; decide)
    have hlt : g.enumPos + size < 2 ^ 64 := by have := hg.le; omega
    simp only
    rw [hg.pos, fits_some hlt, wrap_of_lt hlt]
    have hgle := hg.le
    exact ⟨⟨rfl, rfl, rfl, hl.stats, fun _ => hf⟩,
      ⟨rfl, min_le_left _ _, hg.stopped, hg.results, hg.fresh, hg.sent.mono (le_min hg.le (by omega))⟩⟩
  | work =>
    obtain ⟨x, hx, hlt⟩ := hproc hpc
    simp only
    rw [hl.pos]
    rcases processPosR_mod s ds l.pos hl.stats with ⟨e1, _⟩ | ⟨y, y', e1, e2, hy⟩
    · rw [hx] at e1; cases e1
    · rw [hx] at e1
      have := Option.some.inj e1
      subst this
      rw [hx, e2]
      simp only
      have hev : y'.1.evalCount = x.1.evalCount := by rw [hy.evals, wrap_of_lt hlt]
      rw [hev]
      by_cases h : x.1.evalCount ≥ 10000
      · rw [if_pos h, if_pos h]
        exact ⟨⟨rfl, rfl, hl.stop, hy, fun hc => absurd rfl hc⟩, hg⟩
      · rw [if_neg h, if_neg h]
        refine ⟨⟨?_, ?_, hl.stop, hy, fun _ => ?_⟩, hg⟩
        · unfold Local.advance; simp only; rw [hl.stop]
        · rfl
        · show x.1.evalCount < 10000
          omega
  | flush => exact ⟨⟨rfl, hl.pos, hl.stop, init_mod _, fun _ => by show 0 < 10000; decide⟩, hg.update hex total hl⟩
  | check =>
    have hf := hl.few (by rw [hpc]; decide)
    simp only
    rw [hg.stopped]
    split
    · exact ⟨⟨rfl, hl.pos, hl.stop, hl.stats, fun _ => hf⟩, hg⟩
    · exact ⟨⟨by unfold Local.advance; rw [hl.pos, hl.stop], congrArg (· + 1) hl.pos, hl.stop, hl.stats, fun _ => hf⟩, hg⟩
  | final => exact ⟨⟨rfl, hl.pos, hl.stop, hl.stats, fun _ => hl.few (by rw [hpc]; decide)⟩, hg.update hex total hl⟩
  | done => exact ⟨hl, hg⟩
  | panicked => exact ⟨hl, hg⟩

section
variable {ranges : List (List Combo)} {b d : Nat} {s : Sim} {ds : List DividerU64} {total size : Nat}

theorem posShows_length (s : Sim) (ds : List DividerU64) (pos : Nat) : (posShows s ds pos).length ≤ Nat.choose 52 5 := by
  unfold posShows
  split
  · unfold dealShows
    rw [List.length_map]
    exact boards_length_le _ _ _
  · exact Nat.zero_le _

/-- The evaluations of one position are few. -/
theorem Ready.posFull_evals (h : Ready ranges b d s ds total size) {pos : Nat} (hpos : pos < total) :
    (posFull s ds pos).2 ≤ Nat.choose 52 5 := by
  have h1 := h.evals_le [pos] (fun p hp => by rw [List.mem_singleton.1 hp]; exact hpos)
  have e : sumOf (posFull s ds) (([pos] : List Nat) : Multiset Nat) = posFull s ds pos := by
    unfold sumOf
    simp
  rw [e, List.flatMap_cons, List.flatMap_nil, List.append_nil] at h1
  exact h1.trans (posShows_length s ds pos)

theorem choose_small : Nat.choose 52 5 < 2 ^ 22 := by decide +kernel

theorem Ready.process_small (h : Ready ranges b d s ds total size) {r0 : Results} {nT : Nat} {w : World} {hist : List (Batch × HandStats)}
    {Dr A : Multiset Nat} {Dl : Nat → Multiset Nat} (hI : Inv s total (posFull s ds) r0 nT w hist Dr A Dl) {t : Nat} (ht : t < nT)
    (hfew : (w.locals t).pc ≠ .flush → (w.locals t).stats.evalCount < 10000) (hpc : (w.locals t).pc = .work) :
    ∃ x, s.processPos ds (w.locals t).pos ((w.locals t).stats, (w.locals t).hands) = some x ∧ x.1.evalCount < 2 ^ 64 := by
  obtain ⟨h1, h2⟩ := hI.inside t ht (Or.inl hpc)
  have hlt : (w.locals t).pos < total := by omega
  obtain ⟨x, e1, e2, _⟩ := h.processes _ hlt ((w.locals t).stats, (w.locals t).hands) (hI.ids t ht)
  refine ⟨x, e1, ?_⟩
  have e3 : x.1.evalCount = (w.locals t).stats.evalCount + (posFull s ds (w.locals t).pos).2 := congrArg (fun y : FT => y.2) e2
  have h3 := h.posFull_evals hlt
  have h4 := hfew (by rw [hpc]; decide)
  have := choose_small
  omega

theorem WorldMod.thread (h : Ready ranges b d s ds total size) (hroom : total + size < 2 ^ 64) {r0 : Results} {nT : Nat}
    {w w' : World} {hist : List (Batch × HandStats)} {Dr A : Multiset Nat} {Dl : Nat → Multiset Nat}
    (hI : Inv s total (posFull s ds) r0 nT w hist Dr A Dl) (hw : WorldMod s.nPlayers total w w') {t : Nat} (ht : t < nT) :
    WorldMod s.nPlayers total
      { locals := Function.update w.locals t (threadStep s ds total size (w.locals t) w.shared).1,
        shared := (threadStep s ds total size (w.locals t) w.shared).2 }
      { locals := Function.update w'.locals t (threadStepR s ds total size (w'.locals t) w'.shared).1,
        shared := (threadStepR s ds total size (w'.locals t) w'.shared).2 } := by
  obtain ⟨h1, h2⟩ := threadStepR_mod h.fields.2.2.2.2.1 ds hroom (hw.locals t) hw.shared
    (h.process_small hI ht (hw.locals t).few)
  refine ⟨fun u => ?_, h2⟩
  by_cases hu : u = t
  · subst hu; simp only [Function.update_self]; exact h1
  · simp only [Function.update_of_ne hu]; exact hw.locals u

theorem WorldMod.cancel {n total : Nat} {w w' : World} (h : WorldMod n total w w') :
    WorldMod n total { w with shared := { w.shared with stopped := true } } { w' with shared := { w'.shared with stopped := true } } :=
  ⟨h.locals, ⟨h.shared.pos, h.shared.le, rfl, h.shared.results, h.shared.fresh, h.shared.sent⟩⟩

theorem UMod.blank {u : UnitResults} (h : Blank u) : UMod u u := by
  rw [h]
  exact ⟨rfl, rfl, rfl, rfl, rfl, rfl, rfl, zeroToo_zero⟩

theorem startResults_mod {r0 : Results} {flag : Nat} (h : startResults s = some (r0, flag)) : ResMod r0 r0 := by
  obtain ⟨h1, h2, h3, h4, h5, h6, h7⟩ := startResults_counts h
  refine ⟨fun k => UMod.blank (h7 k), fun p => by rw [h1 p]; rfl, fun i => ?_, ?_, fun p => by rw [h2]; exact zeroToo_zero,
    fun k => Or.inl (by rw [h7 k]; rfl)⟩
  · have : r0.winsByMask i = 0 := congrFun (congrArg (fun x : FT => x.1.1) h3) i
    rw [this]; rfl
  · have : r0.evalCount = 0 := congrArg (fun x : FT => x.2) h3
    rw [this]; rfl

theorem init_worldMod {r0 : Results} {flag : Nat} (total : Nat) (h : startResults s = some (r0, flag)) (cancelled : Bool) :
    WorldMod s.nPlayers total (World.init s r0 cancelled) (World.init s r0 cancelled) :=
  ⟨fun _ => ⟨rfl, rfl, rfl, init_mod _, fun _ => by show 0 < 10000; decide⟩, ⟨rfl, Nat.zero_le _, rfl, startResults_mod h, startResults_fresh h, [], rfl,
    rfl, List.Pairwise.nil, fun _ hp => by cases hp⟩⟩

/-- A run of the release build is accompanied by a run of the exact model. -/
theorem StepsR.follow (h : Ready ranges b d s ds total size) (hroom : total + size < 2 ^ 64) {r0 : Results} {flag : Nat}
    (hr0 : startResults s = some (r0, flag)) {nT : Nat} {cancelled : Bool} {v' : World}
    (hs : StepsR s ds total size nT (World.init s r0 cancelled) v') :
    ∃ v, Steps s ds total size nT (World.init s r0 cancelled) v ∧ WorldMod s.nPlayers total v v' := by
  induction hs with
  | refl => exact ⟨_, .refl, init_worldMod total hr0 cancelled⟩
  | step _ hstep ih =>
    obtain ⟨v, h1, h2⟩ := ih
    obtain ⟨_, _, _, _, hI⟩ := Inv.steps h.processes h.size_pos h1
    cases hstep with
    | cancel => exact ⟨_, .step h1 (.cancel v), h2.cancel⟩
    | thread t ht hpc =>
      refine ⟨_, .step h1 (.thread v t ht ?_), h2.thread h hroom hI ht⟩
      rwa [(h2.locals t).pc] at hpc

/-- A run of the exact model is accompanied by a run of the release build. -/
theorem Steps.followR (h : Ready ranges b d s ds total size) (hroom : total + size < 2 ^ 64) {r0 : Results} {flag : Nat}
    (hr0 : startResults s = some (r0, flag)) {nT : Nat} {cancelled : Bool} {v : World}
    (hs : Steps s ds total size nT (World.init s r0 cancelled) v) :
    ∃ v', StepsR s ds total size nT (World.init s r0 cancelled) v' ∧ WorldMod s.nPlayers total v v' := by
  induction hs with
  | refl => exact ⟨_, .refl, init_worldMod total hr0 cancelled⟩
  | step h1 hstep ih =>
    obtain ⟨v', h1', h2⟩ := ih
    obtain ⟨_, _, _, _, hI⟩ := Inv.steps h.processes h.size_pos h1
    cases hstep with
    | cancel => exact ⟨_, .step h1' (.cancel v'), h2.cancel⟩
    | thread t ht hpc =>
      refine ⟨_, .step h1' (.thread v' t ht ?_), h2.thread h hroom hI ht⟩
      rwa [(h2.locals t).pc]

/-! ## The number of positions -/

theorem preflopComboCountR_eq (h : s.preflopComboCount = some total) : s.preflopComboCountR = total := by
  unfold Sim.preflopComboCount at h
  unfold Sim.preflopComboCountR
  revert h
  suffices ∀ (l : List CombinedRange) (a : Nat), l.foldlM (fun count c => fits 64 (count * c.size)) a = some total →
      l.foldl (fun count c => wrap (count * c.size)) a = total from this _ _
  intro l
  induction l with
  | nil => intro a h; exact Option.some.inj h
  | cons c l ih =>
    intro a h
    rw [List.foldlM_cons] at h
    obtain ⟨u, hu, h⟩ := Option.bind_eq_some_iff.1 h
    obtain ⟨rfl, hlt⟩ := fits_sound hu
    rw [List.foldl_cons, wrap_of_lt hlt]
    exact ih _ h

end

end Pokers
