import Verif.Proofs.McMean
import Verif.Proofs.Visited
import Verif.Props.MonteCarlo
/-!
# Runs of the random simulation with given boards
-/
namespace Pokers
open Spec
open CombinedRange

section
variable {sqrt : ℚ → ℚ} {target : ℚ} {ranges : List (List Combo)} {b d : Nat} {s : Sim} {r0 : Results} {nT : Nat}

/-- Some draws lead to the evaluation of a given board. -/
theorem McReady.evalDeal_choice (h : McReady ranges b d s) {l : McLocal} {dd : List WHand} {B : List Nat}
    (hdd : dd ∈ deals (specRanges ranges) (maskCards b ++ maskCards d)) (hat : AtDeal (maskCards b) (maskCards d) l.walk dd)
    (hB : B ∈ boards (maskCards b) (maskCards d) dd) :
    ∃ ds l', Pokers.evalDeal s l ds = .ok l' [] ∧ full (l'.stats, l'.hands) = full (l.stats, l.hands) + showFull (dd, B) ∧ l'.walk = l.walk := by
  have h1 := (C43_boards h hat hB hB).2
  unfold boardSequences at h1
  rw [List.countP_pos_iff] at h1
  obtain ⟨ds, _, h1⟩ := h1
  have h1 := @of_decide_eq_true _ (_) h1
  obtain ⟨l', g1, g2, _⟩ := h.evalDeal_board hdd hat hB h1
  obtain ⟨_, _, _, _, g3, _⟩ := (h.evalDeal hdd hat ds).2 _ _ g1
  exact ⟨ds, l', g1, g2, g3⟩

/-- The showdowns of a list of deals with the boards given by `f`. -/
def withBoards (f : Nat → List WHand → List Nat) (ds : List (List WHand)) : List (List WHand × List Nat) :=
  ds.mapIdx fun i dd => (dd, f i dd)

theorem withBoards_cons (f : Nat → List WHand → List Nat) (dd : List WHand) (ds : List (List WHand)) :
    withBoards f (dd :: ds) = (dd, f 0 dd) :: withBoards (fun i => f (i + 1)) ds := by
  unfold withBoards
  rw [List.mapIdx_cons]

/-- A property of the states of a run that every step of a thread preserves. -/
structure ThreadClosed (sqrt : ℚ → ℚ) (target : ℚ) (s : Sim) (nT : Nat) (w0 : McWorld) (R : McWorld → Prop) : Prop where
  run : ∀ {w}, R w → McSteps sqrt target s nT w0 w
  step : ∀ {w : McWorld} {t : Nat}, t < nT → (w.locals t).pc ≠ .done ∧ (w.locals t).pc ≠ .panicked → ∀ (ds : Draws) {l : McLocal} {g : McShared},
    mcStep sqrt target s (w.locals t) w.shared ds = .ok (l, g) [] → R w → R { locals := Function.update w.locals t l, shared := g }

theorem ThreadClosed.steps (w0 : McWorld) : ThreadClosed sqrt target s nT w0 (McSteps sqrt target s nT w0) :=
  ⟨id, fun ht hpc ds _ _ h hw => .step hw (.thread _ _ ht hpc ds _ _ h)⟩

theorem ThreadClosed.go {w0 : McWorld} {R : McWorld → Prop} (hR : ThreadClosed sqrt target s nT w0 R) {w : McWorld} (hw : R w) {t : Nat} (ht : t < nT)
    {l l' : McLocal} {g' : McShared} (hl : w.locals t = l) (hpc : l.pc ≠ .done ∧ l.pc ≠ .panicked) (ds : Draws)
    (h : mcStep sqrt target s l w.shared ds = .ok (l', g') []) : R { locals := Function.update w.locals t l', shared := g' } :=
  hR.step ht (by rw [hl]; exact hpc) ds (by rw [hl]; exact h) hw

/-- A thread at an evaluation can go on until its batch is full, with any moves and any boards. -/
theorem fill_choice (h : McReady ranges b d s) {cancelled : Bool} {R : McWorld → Prop}
    (hR : ThreadClosed sqrt target s nT (McWorld.init s r0 cancelled) R) {t : Nat} (ht : t < nT) : ∀ (k : Nat) (w : McWorld)
    (mv : List Nat) (f : Nat → List WHand → List Nat), mv.length = k → (∀ i ∈ mv, i < s.combinedRanges.length) →
    (∀ i, ∀ dd ∈ deals (specRanges ranges) (maskCards b ++ maskCards d), f i dd ∈ boards (maskCards b) (maskCards d) dd) →
    R w → (w.locals t).pc = .eval → (w.locals t).stats.evalCount + k + 1 = 4096 →
    ∃ w' ds, R w' ∧ (w'.locals t).pc = .flush ∧
      (∀ u, u ≠ t → w'.locals u = w.locals u) ∧ w'.shared = w.shared ∧ ds.length = k + 1 ∧
      (∀ dd ∈ ds, dd ∈ deals (specRanges ranges) (maskCards b ++ maskCards d)) ∧
      full ((w'.locals t).stats, (w'.locals t).hands) = full ((w.locals t).stats, (w.locals t).hands) + showsFull (withBoards f ds) ∧
      ds.IsChain (OneGroup (groupsOf s)) ∧ (∀ picks, WalkOk s.combinedRanges (b ||| d) (w.locals t).walk picks → ds.head? = some (handsAt s picks)) ∧
      ds = (visited s.combinedRanges (b ||| d) (walkIdx s (w.locals t).walk) mv).map (dealAt s) := by
  intro k
  induction k with
  | zero =>
    intro w mv f hmvl hmv hf hw hpc hk
    obtain ⟨hist, Dr, Dl, hi⟩ := McInv.steps h (hR.run hw)
    obtain ⟨picks, hwk⟩ := hi.walk t ht (Or.inl hpc)
    obtain ⟨dd, hdd, hat, edd⟩ := h.atDeal_written hwk (hi.outside t ht)
    obtain ⟨ds, l1, ho, g1, gw⟩ := h.evalDeal_choice (l := w.locals t) hdd hat (hf 0 dd hdd)
    have hcnt : l1.stats.evalCount = (w.locals t).stats.evalCount + 1 := congrArg Prod.snd g1
    have st := hR.go hw ht rfl
      ⟨by rw [hpc]; exact (fun h => by cases h), by rw [hpc]; exact (fun h => by cases h)⟩ ds
      (l' := { l1 with pc := McPc.flush }) (g' := w.shared) (by
        unfold mcStep
        rw [hpc]
        simp only [ho]
        rw [and_fff, hcnt, if_pos (by omega)])
    refine ⟨_, [dd], st, ?_, fun u hu => Function.update_of_ne hu _ _, rfl, rfl, by simpa using hdd, ?_, List.isChain_singleton _, fun q hq => ?_, ?_⟩
    · show (Function.update w.locals t _ t).pc = _
      rw [Function.update_self]
    · show full ((Function.update w.locals t _ t).stats, (Function.update w.locals t _ t).hands) = _
      rw [Function.update_self]
      exact g1
    · rw [hq.unique hwk, edd]; rfl
    · rw [List.length_eq_zero_iff.1 hmvl]
      show [dd] = [dealAt s _]
      rw [dealAt_walk hwk, edd]
      rfl
  | succ k ih =>
    intro w mv f hmvl hmv hf hw hpc hk
    obtain ⟨hist, Dr, Dl, hi⟩ := McInv.steps h (hR.run hw)
    obtain ⟨picks, hwk⟩ := hi.walk t ht (Or.inl hpc)
    obtain ⟨dd, hdd, hat, edd⟩ := h.atDeal_written hwk (hi.outside t ht)
    obtain ⟨ds, l1, ho, g1, gw⟩ := h.evalDeal_choice (l := w.locals t) hdd hat (hf 0 dd hdd)
    have hcnt : l1.stats.evalCount = (w.locals t).stats.evalCount + 1 := congrArg Prod.snd g1
    have hw1 := hR.go hw ht rfl
      ⟨by rw [hpc]; exact (fun h => by cases h), by rw [hpc]; exact (fun h => by cases h)⟩ ds
      (l' := { l1 with pc := McPc.move }) (g' := w.shared) (by
        unfold mcStep
        rw [hpc]
        simp only [ho]
        rw [and_fff, hcnt, if_neg (by omega)])
    obtain ⟨hist1, Dr1, Dl1, hi1⟩ := McInv.steps h (hR.run hw1)
    have hpc1 : ((Function.update w.locals t { l1 with pc := McPc.move }) t).pc = .move := by rw [Function.update_self]
    obtain ⟨picks1, hwk1⟩ := hi1.walk t ht (Or.inr hpc1)
    cases mv with
    | nil => simp at hmvl
    | cons i mv =>
      have hil := hmv i (List.mem_cons_self ..)
      obtain ⟨w1, c, e1, e2, e3, e4⟩ := redeal_spec h.crsOk.1 hwk1 hil
      simp only [Function.update_self] at e1
      have hw2 := hR.go (w := { locals := Function.update w.locals t { l1 with pc := McPc.move }, shared := w.shared }) hw1 ht
        (Function.update_self ..) ⟨(fun h => by cases h), (fun h => by cases h)⟩ [i]
        (l' := { l1 with pc := McPc.eval, walk := w1 }) (g' := w.shared) (by
          unfold mcStep sample
          simp only [if_pos hil, List.getElem?_eq_getElem hil, e1])
      have hnext : nextIdx s.combinedRanges (b ||| d) (walkIdx s l1.walk) i = walkIdx s w1 := by
        simp only [Function.update_self] at hwk1
        exact points_unique (nextIdx_points h.crsOk.1 hwk1 (walkIdx_points s _) (walkIdx_length s _) hil e1) (by rw [nextIdx_length, walkIdx_length])
      obtain ⟨w', ds', a1, a2, a3, a4, a5, a6, a7, a8, a9, a10⟩ := ih _ mv (fun i => f (i + 1)) (by simpa using hmvl)
        (fun j hj => hmv j (List.mem_cons_of_mem _ hj)) (fun i => hf (i + 1)) hw2 (by
        show McLocal.pc (Function.update (β := fun _ => McLocal) _ t _ t) = _
        rw [Function.update_self]) (by
        show (McLocal.stats (Function.update (β := fun _ => McLocal) _ t _ t)).evalCount + k + 1 = 4096
        rw [Function.update_self]
        show l1.stats.evalCount + k + 1 = 4096
        omega)
      refine ⟨w', dd :: ds', a1, a2, fun u hu => ?_, a4, by rw [List.length_cons, a5], ?_, ?_, ?_, fun q hq => ?_, ?_⟩
      · rw [a3 u hu]
        show Function.update (Function.update w.locals t _) t _ u = _
        rw [Function.update_of_ne hu, Function.update_of_ne hu]
      · intro x hx
        rcases List.mem_cons.1 hx with rfl | hx
        · exact hdd
        · exact a6 x hx
      · rw [a7]
        simp only [Function.update_self]
        rw [g1, withBoards_cons, ← List.singleton_append, showsFull_append, showsFull_single, add_assoc]
      · have hwk2 : WalkOk s.combinedRanges (b ||| d) (w.locals t).walk picks1 := by
          rw [← gw]
          simp only [Function.update_self] at hwk1
          exact hwk1
        have := a9 (picks1.set i c) (by
          show WalkOk _ _ (McLocal.walk (Function.update (β := fun _ => McLocal) _ t _ t)) _
          rw [Function.update_self]
          exact e3)
        refine List.IsChain.cons a8 fun y hy => ?_
        rw [this, Option.mem_some] at hy
        rw [← hy, edd, hwk.unique hwk2]
        exact oneGroup_set picks1 hil c
      · rw [hq.unique hwk, edd]; rfl
      · show _ = dealAt s _ :: (visited _ _ (nextIdx _ _ _ i) mv).map (dealAt s)
        rw [dealAt_walk hwk, ← gw, hnext, a10]
        simp only [Function.update_self]
        rw [edd]
        rfl

theorem legalIdx_length : ∀ {crs : List CombinedRange} {u : Nat} {x : List Nat}, LegalIdx crs u x → x.length = crs.length
  | [], _, [], _ => rfl
  | _ :: _, _, _ :: _, h => by
    obtain ⟨_, _, _, _, h⟩ := h
    rw [List.length_cons, List.length_cons, legalIdx_length h]

/-- When the next batch sets the token, or it is set, a thread can finish after one batch with any moves and any boards. -/
theorem finish_choice (h : McReady ranges b d s) {x : List Nat} (hx : LegalIdx s.combinedRanges (s.boardMask ||| s.deadMask) x)
    {cancelled : Bool} {R : McWorld → Prop} (hR : ThreadClosed sqrt target s nT (McWorld.init s r0 cancelled) R) {t : Nat} (ht : t < nT)
    {w : McWorld} (hw : R w) (hpc : w.locals t = McLocal.init s.nPlayers) (hst : ∀ l, (w.shared.update sqrt target s false l).stopped = true)
    {mv : List Nat} (hmvl : mv.length = 4095) (hmv : ∀ i ∈ mv, i < s.combinedRanges.length) {f : Nat → List WHand → List Nat}
    (hf : ∀ i, ∀ dd ∈ deals (specRanges ranges) (maskCards b ++ maskCards d), f i dd ∈ boards (maskCards b) (maskCards d) dd) :
    ∃ w' ds y, R w' ∧ (w'.locals t).pc = .done ∧
      (∀ u, u ≠ t → w'.locals u = w.locals u) ∧ w'.shared.stopped = true ∧ ds.length = 4096 ∧
      (∀ dd ∈ ds, dd ∈ deals (specRanges ranges) (maskCards b ++ maskCards d)) ∧ full y = showsFull (withBoards f ds) ∧
      IdPlayers s.nPlayers y.1 ∧ y.1.evalCount = 4096 ∧ w'.shared.sent.length = w.shared.sent.length + 2 ∧
      w'.shared.results = applyFlushes sqrt s.nPlayers s.calcExact [y, (Batch.init s.nPlayers, HandStats.init)] w.shared.results ∧
      ds.IsChain (OneGroup (groupsOf s)) ∧ ds.head? = some (dealAt s x) ∧ ds = (visited s.combinedRanges (b ||| d) x mv).map (dealAt s) := by
  obtain ⟨w1, h1, hpt⟩ := attempts_legal s 999 Walk.init hx
  have hw1 := hR.go hw ht hpc ⟨(fun h => by cases h), (fun h => by cases h)⟩ x
    (l' := { McLocal.init s.nPlayers with walk := w1, pc := .eval }) (g' := w.shared) (by
      show (match randomizeHoleCards s Walk.init x with
        | .ok (ok, w') ds => Out.ok ({ McLocal.init s.nPlayers with walk := w', pc := if ok then .eval else .final }, w.shared) ds
        | .more => .more
        | .panic => .ok ({ McLocal.init s.nPlayers with pc := .panicked }, w.shared) []) = _
      rw [show randomizeHoleCards s Walk.init x = .ok (true, w1) [] from h1]
      rfl)
  obtain ⟨hist1, Dr1, Dl1, hi1⟩ := McInv.steps h (hR.run hw1)
  obtain ⟨picks, hwk⟩ := hi1.walk t ht (Or.inl (by
    show McLocal.pc (Function.update (β := fun _ => McLocal) _ t _ t) = _
    rw [Function.update_self]))
  obtain ⟨w2, ds, a1, a2, a3, a4, a5, a6, a7, a8, a9, a10⟩ := fill_choice h hR ht 4095 _ mv f hmvl hmv hf hw1 (by
    show McLocal.pc (Function.update (β := fun _ => McLocal) _ t _ t) = _
    rw [Function.update_self]) (by
    show (McLocal.stats (Function.update (β := fun _ => McLocal) _ t _ t)).evalCount + 4095 + 1 = 4096
    rw [Function.update_self]
    rfl)
  simp only [Function.update_self] at a7 a10
  rw [show full ((McLocal.init s.nPlayers).stats, (McLocal.init s.nPlayers).hands) = 0 from full_init _, zero_add] at a7
  obtain ⟨hist, Dr, Dl, hi⟩ := McInv.steps h (hR.run a1)
  have st2 := hR.go a1 ht rfl ⟨by rw [a2]; exact (fun h => by cases h), by rw [a2]; exact (fun h => by cases h)⟩ []
    (l' := { w2.locals t with pc := .check, stats := Batch.init s.nPlayers, hands := HandStats.init })
    (g' := w2.shared.update sqrt target s false (w2.locals t)) (by unfold mcStep; rw [a2])
  have hst2 : (w2.shared.update sqrt target s false (w2.locals t)).stopped = true := by
    rw [a4]
    exact hst _
  have st3 := hR.go
    (w := { locals := Function.update w2.locals t { w2.locals t with pc := .check, stats := Batch.init s.nPlayers, hands := HandStats.init }, shared := w2.shared.update sqrt target s false (w2.locals t) })
    st2 ht (Function.update_self ..) ⟨(fun h => by cases h), (fun h => by cases h)⟩ []
    (l' := { w2.locals t with pc := .final, stats := Batch.init s.nPlayers, hands := HandStats.init })
    (g' := w2.shared.update sqrt target s false (w2.locals t)) (by unfold mcStep; simp only [hst2, if_true])
  have st4 := hR.go
    (w := { locals := Function.update (Function.update w2.locals t { w2.locals t with pc := .check, stats := Batch.init s.nPlayers, hands := HandStats.init }) t { w2.locals t with pc := .final, stats := Batch.init s.nPlayers, hands := HandStats.init }, shared := w2.shared.update sqrt target s false (w2.locals t) })
    st3 ht (Function.update_self ..) ⟨(fun h => by cases h), (fun h => by cases h)⟩ []
    (l' := { w2.locals t with pc := .done, stats := Batch.init s.nPlayers, hands := HandStats.init })
    (g' := (w2.shared.update sqrt target s false (w2.locals t)).update sqrt target s true { w2.locals t with pc := .final, stats := Batch.init s.nPlayers, hands := HandStats.init }) (by unfold mcStep; rfl)
  refine ⟨_, ds, ((w2.locals t).stats, (w2.locals t).hands), st4, ?_, fun u hu => ?_, ?_, a5, a6, a7, hi.ids t ht, ?_, ?_, ?_, a8, ?_, ?_⟩
  · show McLocal.pc (Function.update (β := fun _ => McLocal) _ t _ t) = _
    rw [Function.update_self]
  · show Function.update (Function.update (Function.update _ t _) t _) t _ u = _
    rw [Function.update_of_ne hu, Function.update_of_ne hu, Function.update_of_ne hu, a3 u hu]
    show Function.update w.locals t _ u = _
    rw [Function.update_of_ne hu]
  · exact update_stopped hst2
  · have : (w2.locals t).stats.evalCount = (withBoards f ds).length := congrArg Prod.snd a7
    rw [this]
    unfold withBoards
    rw [List.length_mapIdx, a5]
  · show (w2.shared.sent ++ [_] ++ [_]).length = _
    rw [a4]
    simp
  · rw [show w.shared.results = w2.shared.results by rw [a4]]
    rfl
  · rw [a9 picks hwk]
    simp only [Function.update_self] at hwk
    unfold dealAt handsAt
    rw [picksAt_eq hwk hpt (legalIdx_length hx)]
  · rw [a10, points_unique hpt (legalIdx_length hx)]

end

/-- From a state in which no thread has begun: for any moves and any boards the threads can finish after one batch each, in which these boards are evaluated,
in the order given by the deals. -/
theorem choice_main {sqrt : ℚ → ℚ} {target : ℚ} {ranges : List (List Combo)} {b d : Nat} {s : Sim} {r0 : Results} {nT : Nat} (h : McReady ranges b d s)
    {cancelled : Bool} {R : McWorld → Prop}
    (hR : ThreadClosed sqrt target s nT (McWorld.init s r0 cancelled) R) {w0 : McWorld} (hw0 : R w0)
    (hloc : ∀ t, w0.locals t = McLocal.init s.nPlayers) (hres : w0.shared.results = r0) (hsent : w0.shared.sent = [])
    (hstop : ∀ l, (w0.shared.update sqrt target s false l).stopped = true) {x : Nat → List Nat}
    (hx : ∀ t, LegalIdx s.combinedRanges (s.boardMask ||| s.deadMask) (x t)) {mv : Nat → List Nat} (hmvl : ∀ t, (mv t).length = 4095)
    (hmv : ∀ t, ∀ i ∈ mv t, i < s.combinedRanges.length) (f : Nat → Nat → List WHand → List Nat)
    (hf : ∀ t i, ∀ dd ∈ deals (specRanges ranges) (maskCards b ++ maskCards d), f t i dd ∈ boards (maskCards b) (maskCards d) dd) :
    ∃ w hist, ∃ ds : Nat → List (List WHand), R w ∧ (∀ t < nT, (w.locals t).pc = .done) ∧ w.shared.sent.length = 2 * nT ∧
      (∀ t, t < nT → (ds t).length = 4096 ∧ (∀ dd ∈ ds t, dd ∈ deals (specRanges ranges) (maskCards b ++ maskCards d)) ∧
        (ds t).IsChain (OneGroup (groupsOf s)) ∧ (ds t).head? = some (dealAt s (x t)) ∧
        ds t = (visited s.combinedRanges (b ||| d) (x t) (mv t)).map (dealAt s)) ∧
      ∀ flag, startResults s = some (r0, flag) → McRun sqrt ranges b d (finishResults s flag w.shared.results) s flag r0 hist
        ((List.range nT).flatMap fun t => withBoards (f t) (ds t)) := by
  obtain ⟨s0, hs0, _, hs⟩ := h.exact
  have hex : s.calcExact = false := by rw [hs]
  have hlegal : ∀ t (ds : List (List WHand)), (∀ dd ∈ ds, dd ∈ deals (specRanges ranges) (maskCards b ++ maskCards d)) →
      ∀ y ∈ withBoards (f t) ds, Legal ranges b d y := by
    intro t ds hds y hy
    obtain ⟨i, hi, rfl⟩ := List.mem_mapIdx.1 hy
    exact ⟨hds _ (List.getElem_mem hi), hf t i _ (hds _ (List.getElem_mem hi))⟩
  have main : ∀ k ≤ nT, ∃ w hist, ∃ ds : Nat → List (List WHand), R w ∧
      (∀ t < k, (w.locals t).pc = .done) ∧ (∀ t, k ≤ t → w.locals t = McLocal.init s.nPlayers) ∧ (∀ l, (w.shared.update sqrt target s false l).stopped = true) ∧
      w.shared.sent.length = 2 * k ∧
      (∀ t, t < k → (ds t).length = 4096 ∧ (∀ dd ∈ ds t, dd ∈ deals (specRanges ranges) (maskCards b ++ maskCards d)) ∧
        (ds t).IsChain (OneGroup (groupsOf s)) ∧ (ds t).head? = some (dealAt s (x t)) ∧
        ds t = (visited s.combinedRanges (b ||| d) (x t) (mv t)).map (dealAt s)) ∧
      w.shared.results = applyFlushes sqrt s.nPlayers false hist r0 ∧ (∀ x ∈ hist, IdPlayers s.nPlayers x.1) ∧
      (∀ x ∈ hist, ∃ sd : List (List WHand × List Nat), (∀ y ∈ sd, Legal ranges b d y) ∧ full x = showsFull sd) ∧
      (∀ x ∈ hist, x.1.evalCount = 4096 ∨ x = (Batch.init s.nPlayers, HandStats.init)) ∧
      (hist.map full).sum = showsFull ((List.range k).flatMap fun t => withBoards (f t) (ds t)) := by
    intro k
    induction k with
    | zero =>
      intro _
      refine ⟨w0, [], fun _ => [], hw0, fun t ht => by omega, fun t _ => hloc t, hstop, by rw [hsent]; rfl, fun t ht => by omega, hres, by simp,
        by simp, by simp, ?_⟩
      exact showsFull_nil.symm
    | succ k ih =>
      intro hk
      obtain ⟨w, hist, ds, h1, h2, h3, h4, h5, h6, h7, h8, h9, h10, h11⟩ := ih (by omega)
      obtain ⟨w', ds', y, g1, g2, g3, g4, g5, g6, g7, g8, g9, g10, g11, g12, g13, g14⟩ :=
        finish_choice h (hx k) hR (by omega : k < nT) h1 (h3 k le_rfl) h4 (hmvl k) (hmv k) (hf k)
      refine ⟨w', hist ++ [y, (Batch.init s.nPlayers, HandStats.init)], Function.update ds k ds', g1, fun t ht => ?_, fun t ht => ?_, fun l => update_stopped g4,
        by rw [g10, h5]; ring, fun t ht => ?_, ?_, ?_, ?_, ?_, ?_⟩
      · by_cases htk : t = k
        · subst htk; exact g2
        · rw [g3 t htk]; exact h2 t (by omega)
      · rw [g3 t (by omega)]; exact h3 t (by omega)
      · by_cases htk : t = k
        · subst htk; rw [Function.update_self]; exact ⟨g5, g6, g12, g13, g14⟩
        · rw [Function.update_of_ne htk]; exact h6 t (by omega)
      · rw [g11, h7, hex]
        unfold applyFlushes
        rw [List.foldl_append]
      · intro y hy
        simp only [List.mem_append, List.mem_cons, List.not_mem_nil, or_false] at hy
        rcases hy with hy | rfl | rfl
        · exact h8 y hy
        · exact g8
        · exact batchInit_ids _
      · intro y hy
        simp only [List.mem_append, List.mem_cons, List.not_mem_nil, or_false] at hy
        rcases hy with hy | rfl | rfl
        · exact h9 y hy
        · exact ⟨_, hlegal k ds' g6, g7⟩
        · exact ⟨[], by simp, by rw [showsFull_nil]; exact full_init _⟩
      · intro y hy
        simp only [List.mem_append, List.mem_cons, List.not_mem_nil, or_false] at hy
        rcases hy with hy | rfl | rfl
        · exact h10 y hy
        · exact Or.inl g9
        · exact Or.inr rfl
      · rw [List.map_append, List.sum_append, h11, List.range_succ, List.flatMap_append, showsFull_append]
        have e1 : ((List.range k).flatMap fun t => withBoards (f t) (Function.update ds k ds' t)) =
            (List.range k).flatMap fun t => withBoards (f t) (ds t) := by
          rw [List.flatMap_def, List.flatMap_def]
          congr 1
          apply List.map_congr_left
          intro t ht
          rw [Function.update_of_ne (by have := List.mem_range.1 ht; omega)]
        rw [e1]
        congr 1
        simp only [List.map_cons, List.map_nil, List.sum_cons, List.sum_nil, add_zero, List.flatMap_cons, List.flatMap_nil, List.append_nil,
          Function.update_self]
        rw [g7, show full (Batch.init s.nPlayers, HandStats.init) = 0 from full_init _, add_zero]
  obtain ⟨w, hist, ds, h1, h2, h3, h4, h5, h6, h7, h8, h9, h10, h11⟩ := main nT le_rfl
  refine ⟨w, hist, ds, h1, h2, h5, h6, fun flag hst => ⟨h, hst, by rw [h7], h8, h9, h11, h10, ?_⟩⟩
  intro y hy
  obtain ⟨t, ht, hy⟩ := List.mem_flatMap.1 hy
  exact hlegal t _ (h6 t (List.mem_range.1 ht)).2.1 y hy

/-- Every legal deal is given by indexes. -/
theorem McReady.exists_idx {ranges : List (List Combo)} {b d : Nat} {s : Sim} (h : McReady ranges b d s) {dd : List WHand}
    (hdd : dd ∈ deals (specRanges ranges) (maskCards b ++ maskCards d)) :
    ∃ x, LegalIdx s.combinedRanges (s.boardMask ||| s.deadMask) x ∧ dealAt s x = dd := by
  have := h.dealAt_perm.mem_iff.2 hdd
  obtain ⟨x, hx, e⟩ := List.mem_map.1 this
  refine ⟨x, ?_, e⟩
  rw [h.fields.2.1, h.fields.2.2.1]
  exact (mem_legalIdxs _ _ x h.crsOk.1.size).1 hx

/-- For any first deals, moves and boards there are runs of all threads that begin with these deals, make these moves and evaluate these boards. -/
theorem exists_track (sqrt : ℚ → ℚ) (target : ℚ) {ranges : List (List Combo)} {b d : Nat} (hwf : ∀ r ∈ ranges, WfRange r) (hb : CardMask b)
    (hd : CardMask d) {s : Sim} (hp : PrepareApprox ranges b d (.ok s)) (nT : Nat) (cancelled : Bool) {x : Nat → List Nat}
    (hx : ∀ t, LegalIdx s.combinedRanges (b ||| d) (x t)) {mv : Nat → List Nat} (hmvl : ∀ t, (mv t).length = 4095)
    (hmv : ∀ t, ∀ i ∈ mv t, i < s.combinedRanges.length) (f : Nat → Nat → List WHand → List Nat)
    (hf : ∀ t i, ∀ dd ∈ deals (specRanges ranges) (maskCards b ++ maskCards d), f t i dd ∈ boards (maskCards b) (maskCards d) dd) :
    ∃ r sent flag r0 hist, ∃ ds : Nat → List (List WHand), ApproxEquity sqrt ranges b d nT target cancelled (.ok r) sent ∧
      sent.length = 2 * nT ∧
      (∀ t, t < nT → (ds t).length = 4096 ∧ (∀ dd ∈ ds t, dd ∈ deals (specRanges ranges) (maskCards b ++ maskCards d)) ∧
        (ds t).IsChain (OneGroup (groupsOf s)) ∧ (ds t).head? = some (dealAt s (x t)) ∧
        ds t = (visited s.combinedRanges (b ||| d) (x t) (mv t)).map (dealAt s)) ∧
      McRun sqrt ranges b d r s flag r0 hist ((List.range nT).flatMap fun t => withBoards (f t) (ds t)) := by
  have h : McReady ranges b d s := ⟨hwf, hb, hd, hp⟩
  obtain ⟨s0, hs0, _, hs⟩ := h.exact
  have ha := prepareExact_ok hs0
  obtain ⟨r0, flag, hst⟩ := start_some_of (d := d) hwf (s := s) h.fields.2.1 h.fields.2.2.2.2.2.2.2.2.2 (by rw [hs, ha.sim]; rfl)
  obtain ⟨w, hist, ds, h1, h2, h3, h4, h5⟩ := choice_main h (.steps _) (McSteps.step .refl (.cancel (McWorld.init s r0 cancelled))) (fun t => rfl)
    rfl rfl (fun l => update_stopped rfl) (fun t => by rw [h.fields.2.1, h.fields.2.2.1]; exact hx t) hmvl hmv f hf
  exact ⟨_, _, flag, r0, hist, ds, ⟨.ok s, hp, r0, flag, w, hst, h1, h2, rfl, rfl⟩, h3, h4, h5 flag hst⟩

/-- For any first deals and any boards there are runs of all threads that begin with these deals and evaluate these boards, in the order given by
the deals.  In each batch one combined range changes at a time. -/
theorem exists_path (sqrt : ℚ → ℚ) (target : ℚ) {ranges : List (List Combo)} {b d : Nat} (hwf : ∀ r ∈ ranges, WfRange r) (hb : CardMask b)
    (hd : CardMask d) {s : Sim} (hp : PrepareApprox ranges b d (.ok s)) (nT : Nat) (cancelled : Bool) (first : Nat → List WHand)
    (hfirst : ∀ t, first t ∈ deals (specRanges ranges) (maskCards b ++ maskCards d)) (f : Nat → Nat → List WHand → List Nat)
    (hf : ∀ t i, ∀ dd ∈ deals (specRanges ranges) (maskCards b ++ maskCards d), f t i dd ∈ boards (maskCards b) (maskCards d) dd) :
    ∃ r sent flag r0 hist, ∃ ds : Nat → List (List WHand), ApproxEquity sqrt ranges b d nT target cancelled (.ok r) sent ∧
      sent.length = 2 * nT ∧
      (∀ t, t < nT → (ds t).length = 4096 ∧ (∀ dd ∈ ds t, dd ∈ deals (specRanges ranges) (maskCards b ++ maskCards d)) ∧
        (ds t).IsChain (OneGroup (groupsOf s)) ∧ (ds t).head? = some (first t)) ∧
      McRun sqrt ranges b d r s flag r0 hist ((List.range nT).flatMap fun t => withBoards (f t) (ds t)) := by
  have h : McReady ranges b d s := ⟨hwf, hb, hd, hp⟩
  choose x hx ex using fun t => h.exists_idx (hfirst t)
  obtain ⟨r, sent, flag, r0, hist, ds, h1, h2, h3, h4⟩ := exists_track sqrt target hwf hb hd hp nT cancelled (x := x)
    (fun t => by have := hx t; rw [h.fields.2.1, h.fields.2.2.1] at this; exact this) (mv := fun _ => List.replicate 4095 0) (fun _ => List.length_replicate ..)
    (fun t i hi => by rw [List.eq_of_mem_replicate hi]; exact h.nonempty) f hf
  exact ⟨r, sent, flag, r0, hist, ds, h1, h2, fun t ht => by rw [← ex t]; exact ⟨(h3 t ht).1, (h3 t ht).2.1, (h3 t ht).2.2.1, (h3 t ht).2.2.2.1⟩, h4⟩

/-- For any boards there are runs of all threads in which these boards are evaluated, in the order given by the deals. -/
theorem exists_choice (sqrt : ℚ → ℚ) (target : ℚ) {ranges : List (List Combo)} {b d : Nat} (hwf : ∀ r ∈ ranges, WfRange r) (hb : CardMask b)
    (hd : CardMask d) {s : Sim} (hp : PrepareApprox ranges b d (.ok s)) (hne : deals (specRanges ranges) (maskCards b ++ maskCards d) ≠ [])
    (nT : Nat) (cancelled : Bool) (f : Nat → Nat → List WHand → List Nat)
    (hf : ∀ t i, ∀ dd ∈ deals (specRanges ranges) (maskCards b ++ maskCards d), f t i dd ∈ boards (maskCards b) (maskCards d) dd) :
    ∃ r sent flag r0 hist, ∃ ds : Nat → List (List WHand), ApproxEquity sqrt ranges b d nT target cancelled (.ok r) sent ∧
      sent.length = 2 * nT ∧
      (∀ t, t < nT → (ds t).length = 4096 ∧ ∀ dd ∈ ds t, dd ∈ deals (specRanges ranges) (maskCards b ++ maskCards d)) ∧
      McRun sqrt ranges b d r s flag r0 hist ((List.range nT).flatMap fun t => withBoards (f t) (ds t)) := by
  obtain ⟨dd, hdd⟩ := List.exists_mem_of_ne_nil _ hne
  obtain ⟨r, sent, flag, r0, hist, ds, h1, h2, h3, h4⟩ := exists_path sqrt target hwf hb hd hp nT cancelled (fun _ => dd) (fun _ => hdd) f hf
  exact ⟨r, sent, flag, r0, hist, ds, h1, h2, fun t ht => ⟨(h3 t ht).1, (h3 t ht).2.1⟩, h4⟩

end Pokers
