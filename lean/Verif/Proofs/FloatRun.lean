import Verif.Proofs.FloatFinish
import Verif.Props.Rates
/-!
# Runs of the floating-point model follow runs of the exact model
-/
namespace Pokers
open Spec

/-! ## The final steps -/

theorem FClose.weight {n : Nat} {u v : UnitResults} (h : FClose n u v) (w : Nat) : FClose n { u with weight := w } { v with weight := w } :=
  ⟨⟨h.close.wins, h.close.ties, h.close.total, rfl, h.close.rank, h.close.draw, h.close.valid, h.close.near, h.close.half⟩, h.eq, h.le, h.win,
    h.tie⟩

theorem fixHandWeights_close {n : Nat} (ranges : List (List Combo)) (flag : Nat) {hr hr' : Nat → UnitResults} (h : HandsClose n hr hr') :
    HandsClose n (fixHandWeights ranges flag hr) (fixHandWeights ranges flag hr') := by
  intro k
  rw [fixHandWeights_eq, fixHandWeights_eq]
  refine foldl_rel (R := FClose n) _ ?_ (h k)
  rintro ⟨r, p⟩ _ u v huv
  unfold fixCell
  split
  · refine foldl_rel (R := FClose n) _ ?_ huv
    intro c _ u v huv
    unfold constWeight
    by_cases hv : u.valid = true
    · rw [if_pos hv, if_pos (huv.close.valid.trans hv)]; exact huv.weight 100
    · rw [if_neg hv, if_neg (by rw [huv.close.valid]; exact hv)]; exact huv
  · exact huv

theorem ResClose.start {n : Nat} {r r' : Results} (h : ResClose n r r')
    (hle : ∀ k, (r.handResults k).wins + (r.handResults k).ties ≤ (r.handResults k).total) : HandsClose n r.handResults r'.handResults := by
  intro k
  obtain ⟨⟨h1, h2⟩, h3, h4⟩ := h.rates k
  exact ⟨h.hands k, h.equity k, hle k, Or.inl ⟨h1, h3⟩, Or.inl ⟨h2, h4⟩⟩

/-- The results `r'` of the floating-point model belong to the results `r` of the exact model: all integers agree, and the
floating-point numbers are close. -/
structure OutClose (n : Nat) (r r' : Results) : Prop where
  wins : r'.wins = r.wins
  masks : r'.winsByMask = r.winsByMask
  evals : r'.evalCount = r.evalCount
  ties : ∀ p, Whole (r.ties p) (r'.ties p)
  exact : ((List.range n).map fun i => (r.wins i : ℚ) + r.ties i).sum ≤ 2 ^ 53 → r'.equities = r.equities.map (Option.map fl)
  rel : (∀ p < n, r.ties p ≤ 2 ^ 53) → ((List.range n).map fun i => (r.wins i : ℚ) + r.ties i).sum < 2 ^ 128 →
    List.Forall₂ (OptRel (n + 4)) r.equities r'.equities
  hands : ∀ k, Published n (r.handResults k) (r'.handResults k)
  combos : List.Forall₂ (Published n) r.comboResults r'.comboResults
  boards : ∀ k, Published n (r.boardResults k) (r'.boardResults k)
  draws : ∀ k, Published n (r.boardDraws k) (r'.boardDraws k)

theorem generateFinalData_close {n : Nat} (m : Nat) {r r' : Results} (h : HandsClose n r.handResults r'.handResults)
    (hc : List.Forall₂ (Published n) r.comboResults r'.comboResults) :
    HandsClose n (generateFinalData m r).handResults (generateFinalDataF m r').handResults ∧
    List.Forall₂ (Published n) (generateFinalData m r).comboResults (generateFinalDataF m r').comboResults := by
  unfold generateFinalData generateFinalDataF
  simp only
  refine foldl_rel (R := fun x x' : (Nat → UnitResults) × List UnitResults => HandsClose n x.1 x'.1 ∧ List.Forall₂ (Published n) x.2 x'.2) _ ?_
    ⟨h, hc⟩
  rintro i _ ⟨hr, cs⟩ ⟨hr', cs'⟩ ⟨h1, h2⟩
  exact finalPlayer_close i NUM_HANDS 0 h1 h2

theorem finishResults_close {s : Sim} (h9 : s.nPlayers ≤ 9) (flag : Nat) {r r' : Results} (h : ResClose s.nPlayers r r')
    (hle : ∀ k, (r.handResults k).wins + (r.handResults k).ties ≤ (r.handResults k).total) (hc : r.comboResults = [])
    (hb : ∀ k, r.boardResults k = UnitResults.default) (hd : ∀ k, r.boardDraws k = UnitResults.default) :
    OutClose s.nPlayers (finishResults s flag r) (finishResultsF s flag r') := by
  have hb' : ∀ k, r'.boardResults k = UnitResults.default := by rw [h.boards]; exact hb
  have hd' : ∀ k, r'.boardDraws k = UnitResults.default := by rw [h.draws]; exact hd
  have hc' : r'.comboResults = [] := by rw [h.combos]; exact hc
  have h1 := fixHandWeights_close s.handRanges flag (h.start hle)
  obtain ⟨h2, h3⟩ := generateFinalData_close s.nPlayers
    (r := getEquity s.nPlayers { r with handResults := fixHandWeights s.handRanges flag r.handResults })
    (r' := getEquityF s.nPlayers { r' with handResults := fixHandWeights s.handRanges flag r'.handResults }) h1
    (by show List.Forall₂ _ r.comboResults r'.comboResults; rw [hc, hc']; exact List.Forall₂.nil)
  have hE := getEquity_exact (n := s.nPlayers) h.wins h.ties
  have hR := getEquity_rel (n := s.nPlayers) h9 h.wins h.ties
  unfold finishResults finishResultsF
  simp only
  split
  · refine ⟨h.wins, h.masks, h.evals, h.ties, hE, fun a b => hR a b, fun k => (h2 k).published, h3, ?_, ?_⟩
    · intro k
      show Published _ (if k < 9 * s.nPlayers then _ else r.boardResults k) (if k < 9 * s.nPlayers then _ else r'.boardResults k)
      split
      · show Published _ (boardUnit _ (r.boardResults k)) (boardUnitF _ (r'.boardResults k))
        rw [hb, hb']
        exact boardUnit_close ((boardTables_close s.nPlayers s.nPlayers h2).1 k)
      · rw [hb, hb']; exact published_default _
    · intro k
      show Published _ (if k < 10 * s.nPlayers then _ else r.boardDraws k) (if k < 10 * s.nPlayers then _ else r'.boardDraws k)
      split
      · show Published _ (boardUnit _ (r.boardDraws k)) (boardUnitF _ (r'.boardDraws k))
        rw [hd, hd']
        exact boardUnit_close ((boardTables_close s.nPlayers s.nPlayers h2).2 k)
      · rw [hd, hd']; exact published_default _
  · refine ⟨h.wins, h.masks, h.evals, h.ties, hE, fun a b => hR a b, fun k => (h2 k).published, h3, fun k => ?_, fun k => ?_⟩
    · show Published _ (r.boardResults k) (r'.boardResults k)
      rw [hb, hb']; exact published_default _
    · show Published _ (r.boardDraws k) (r'.boardDraws k)
      rw [hd, hd']; exact published_default _

/-! ## Runs of the exact calculation -/

/-- The states of a thread. -/
structure LocalClose (n : Nat) (l l' : Local) : Prop where
  pc : l'.pc = l.pc
  pos : l'.pos = l.pos
  stop : l'.stop = l.stop
  stats : StClose n (l.stats, l.hands) (l'.stats, l'.hands)

/-- What no update of the results changes. -/
structure Fresh (n : Nat) (r : Results) : Prop where
  combos : r.comboResults = []
  boards : ∀ k, r.boardResults k = UnitResults.default
  draws : ∀ k, r.boardDraws k = UnitResults.default
  rest : ∀ k, ¬ k < NUM_HANDS * n → Blank (r.handResults k)

theorem Fresh.update {n : Nat} {r : Results} (h : Fresh n r) (sqrt : ℚ → ℚ) (ex : Bool) (b : Batch) (hb : HandStats) :
    Fresh n (updateResults sqrt n ex b hb r) := by
  unfold updateResults
  cases ex
  · refine ⟨h.combos, h.boards, h.draws, fun k hk => ?_⟩
    show Blank (if k < NUM_HANDS * n then _ else _)
    rw [if_neg hk]
    exact h.rest k hk
  · refine ⟨h.combos, h.boards, h.draws, fun k hk => ?_⟩
    show Blank (if k < NUM_HANDS * n then _ else _)
    rw [if_neg hk]
    exact h.rest k hk

theorem startResults_fresh {s : Sim} {r0 : Results} {flag : Nat} (h : startResults s = some (r0, flag)) : Fresh s.nPlayers r0 := by
  obtain ⟨_, _, _, h4, h5, h6, h7⟩ := startResults_counts h
  exact ⟨h4, h5, h6, fun k _ => h7 k⟩

/-- The progress values: those of the same positions, in increasing order. -/
def SentClose (total pos : Nat) (sent sent' : List Nat) : Prop :=
  ∃ ps : List Nat, sent = ps.map (progressExact · total) ∧ sent' = ps.map (progressExactF · total) ∧ ps.Pairwise (· ≤ ·) ∧ ∀ p ∈ ps, p ≤ pos

theorem SentClose.mono {total pos pos' : Nat} {sent sent' : List Nat} (h : SentClose total pos sent sent') (hp : pos ≤ pos') :
    SentClose total pos' sent sent' := by
  obtain ⟨ps, h1, h2, h3, h4⟩ := h
  exact ⟨ps, h1, h2, h3, fun p hq => (h4 p hq).trans hp⟩

theorem SentClose.snoc {total pos : Nat} {sent sent' : List Nat} (h : SentClose total pos sent sent') :
    SentClose total pos (sent ++ [progressExact pos total]) (sent' ++ [progressExactF pos total]) := by
  obtain ⟨ps, h1, h2, h3, h4⟩ := h
  refine ⟨ps ++ [pos], by rw [h1, List.map_append]; rfl, by rw [h2, List.map_append]; rfl, ?_, ?_⟩
  · rw [List.pairwise_append]
    refine ⟨h3, List.pairwise_singleton _ _, fun p hp q hq => ?_⟩
    rw [List.mem_singleton.1 hq]
    exact h4 p hp
  · intro p hp
    rcases List.mem_append.1 hp with hp | hp
    · exact h4 p hp
    · rw [List.mem_singleton.1 hp]

/-- The shared states. -/
structure SharedClose (n total : Nat) (g g' : Shared) : Prop where
  pos : g'.enumPos = g.enumPos
  le : g.enumPos ≤ total
  stopped : g'.stopped = g.stopped
  results : ResClose n g.results g'.results
  fresh : Fresh n g.results
  sent : SentClose total g.enumPos g.sent g'.sent

/-- The states of the system. -/
structure WorldClose (n total : Nat) (w w' : World) : Prop where
  locals : ∀ t, LocalClose n (w.locals t) (w'.locals t)
  shared : SharedClose n total w.shared w'.shared

theorem SharedClose.update {s : Sim} (total : Nat) {l l' : Local} {g g' : Shared} (hl : LocalClose s.nPlayers l l')
    (hg : SharedClose s.nPlayers total g g') : SharedClose s.nPlayers total (g.update s total l) (g'.updateF s total l') :=
  ⟨hg.pos, hg.le, hg.stopped, updateResults_close id (fun _ _ => none) s.calcExact hl.stats hg.results, hg.fresh.update id _ _ _, by
    show SentClose total g.enumPos (g.sent ++ _) (g'.sent ++ [progressExactF g'.enumPos total])
    rw [hg.pos]
    exact hg.sent.snoc⟩

theorem LocalClose.advance {n : Nat} {l l' : Local} (h : LocalClose n l l') : LocalClose n l.advance l'.advance :=
  ⟨by unfold Local.advance; rw [h.pos, h.stop], congrArg (· + 1) h.pos, h.stop, h.stats⟩

theorem threadStep_close {s : Sim} (h9 : s.nPlayers ≤ 9) (ds : List DividerU64) (total size : Nat) {l l' : Local} {g g' : Shared}
    (hl : LocalClose s.nPlayers l l') (hg : SharedClose s.nPlayers total g g') :
    LocalClose s.nPlayers (threadStep s ds total size l g).1 (threadStepF s ds total size l' g').1 ∧
    SharedClose s.nPlayers total (threadStep s ds total size l g).2 (threadStepF s ds total size l' g').2 := by
  unfold threadStepF
  rw [hl.pc]
  unfold threadStep
  rw [hl.pc]
  cases hpc : l.pc with
  | reserve =>
    simp only
    rw [hg.pos]
    cases hf : fits 64 (g.enumPos + size) with
    | none => exact ⟨⟨rfl, hl.pos, hl.stop, hl.stats⟩, hg⟩
    | some e =>
      unfold fits at hf
      split at hf
      · have := Option.some.inj hf
        have := hg.le
        exact ⟨⟨rfl, rfl, rfl, hl.stats⟩, ⟨rfl, min_le_left _ _, hg.stopped, hg.results, hg.fresh, hg.sent.mono (le_min hg.le (by omega))⟩⟩
      · cases hf
  | work =>
    simp only
    rw [hl.pos]
    rcases processPos_close h9 ds l.pos hl.stats with ⟨e1, e2⟩ | ⟨⟨x, y⟩, ⟨x', y'⟩, e1, e2, hx, hy⟩
    · rw [e1, e2]; exact ⟨⟨rfl, rfl, hl.stop, hl.stats⟩, hg⟩
    · rw [e1, e2]
      simp only at hx
      subst hx
      simp only
      split
      · exact ⟨⟨rfl, rfl, hl.stop, rfl, hy⟩, hg⟩
      · refine ⟨LocalClose.advance ⟨rfl, rfl, hl.stop, rfl, hy⟩, hg⟩
  | flush => exact ⟨⟨rfl, hl.pos, hl.stop, init_close _⟩, hg.update total hl⟩
  | check =>
    simp only
    rw [hg.stopped]
    split
    · exact ⟨⟨rfl, hl.pos, hl.stop, hl.stats⟩, hg⟩
    · exact ⟨hl.advance, hg⟩
  | final => exact ⟨⟨rfl, hl.pos, hl.stop, hl.stats⟩, hg.update total hl⟩
  | done => exact ⟨hl, hg⟩
  | panicked => exact ⟨hl, hg⟩

theorem WorldClose.thread {s : Sim} (h9 : s.nPlayers ≤ 9) (ds : List DividerU64) (total size : Nat) {w w' : World}
    (h : WorldClose s.nPlayers total w w') (t : Nat) : WorldClose s.nPlayers total
      { locals := Function.update w.locals t (threadStep s ds total size (w.locals t) w.shared).1,
        shared := (threadStep s ds total size (w.locals t) w.shared).2 }
      { locals := Function.update w'.locals t (threadStepF s ds total size (w'.locals t) w'.shared).1,
        shared := (threadStepF s ds total size (w'.locals t) w'.shared).2 } := by
  obtain ⟨h1, h2⟩ := threadStep_close h9 ds total size (h.locals t) h.shared
  refine ⟨fun u => ?_, h2⟩
  by_cases hu : u = t
  · subst hu; simp only [Function.update_self]; exact h1
  · simp only [Function.update_of_ne hu]; exact h.locals u

theorem WorldClose.cancel {n total : Nat} {w w' : World} (h : WorldClose n total w w') :
    WorldClose n total { w with shared := { w.shared with stopped := true } } { w' with shared := { w'.shared with stopped := true } } :=
  ⟨h.locals, ⟨h.shared.pos, h.shared.le, rfl, h.shared.results, h.shared.fresh, h.shared.sent⟩⟩

theorem init_worldClose {s : Sim} {r0 : Results} {flag : Nat} (total : Nat) (h : startResults s = some (r0, flag)) (cancelled : Bool) :
    WorldClose s.nPlayers total (World.init s r0 cancelled) (World.init s r0 cancelled) :=
  ⟨fun _ => ⟨rfl, rfl, rfl, init_close _⟩, ⟨rfl, Nat.zero_le _, rfl, startResults_close h, startResults_fresh h, [], rfl, rfl, List.Pairwise.nil,
    fun _ hp => by cases hp⟩⟩

/-- A run of the floating-point model is accompanied by a run of the exact model. -/
theorem StepsF.follow {s : Sim} (h9 : s.nPlayers ≤ 9) {ds : List DividerU64} {total size nT : Nat} {u u' v' : World}
    (hu : WorldClose s.nPlayers total u u') (h : StepsF s ds total size nT u' v') :
    ∃ v, Steps s ds total size nT u v ∧ WorldClose s.nPlayers total v v' := by
  induction h with
  | refl => exact ⟨u, .refl, hu⟩
  | step _ hstep ih =>
    obtain ⟨v, h1, h2⟩ := ih
    cases hstep with
    | cancel => exact ⟨_, .step h1 (.cancel v), h2.cancel⟩
    | thread t ht hpc =>
      refine ⟨_, .step h1 (.thread v t ht ?_), h2.thread h9 ds total size t⟩
      rwa [(h2.locals t).pc] at hpc

/-- A run of the exact model is accompanied by a run of the floating-point model. -/
theorem Steps.follow {s : Sim} (h9 : s.nPlayers ≤ 9) {ds : List DividerU64} {total size nT : Nat} {u u' v : World}
    (hu : WorldClose s.nPlayers total u u') (h : Steps s ds total size nT u v) :
    ∃ v', StepsF s ds total size nT u' v' ∧ WorldClose s.nPlayers total v v' := by
  induction h with
  | refl => exact ⟨u', .refl, hu⟩
  | step _ hstep ih =>
    obtain ⟨v', h1, h2⟩ := ih
    cases hstep with
    | cancel => exact ⟨_, .step h1 (.cancel v'), h2.cancel⟩
    | thread t ht hpc =>
      refine ⟨_, .step h1 (.thread v' t ht ?_), h2.thread h9 ds total size t⟩
      rwa [(h2.locals t).pc]

/-! ## Runs of the random simulation -/

/-- The states of a thread. -/
structure McLocalClose (n : Nat) (l l' : McLocal) : Prop where
  pc : l'.pc = l.pc
  walk : l'.walk = l.walk
  stats : StClose n (l.stats, l.hands) (l'.stats, l'.hands)

/-- The shared states. -/
structure McSharedClose (n : Nat) (g g' : McShared) : Prop where
  stopped : g'.stopped = g.stopped
  results : ResClose n g.results g'.results
  fresh : Fresh n g.results
  sent : g'.sent.length = g.sent.length

/-- The states of the system. -/
structure McWorldClose (n : Nat) (w w' : McWorld) : Prop where
  locals : ∀ t, McLocalClose n (w.locals t) (w'.locals t)
  shared : McSharedClose n w.shared w'.shared

/-- The exact model with a standard deviation of zero and the target zero never stops by itself. -/
theorem update_zero_stopped (s : Sim) (h : s.calcExact = false) (fin : Bool) (l : McLocal) (g : McShared) :
    (g.update (fun _ => 0) 0 s fin l).stopped = g.stopped := by
  unfold McShared.update
  simp only
  rw [if_neg]
  rintro ⟨_, hlt⟩
  unfold updateResults at hlt
  rw [h] at hlt
  simp at hlt

theorem evalDeal_close {s : Sim} (h9 : s.nPlayers ≤ 9) {l l' x' : McLocal} (hl : McLocalClose s.nPlayers l l') {ds rest : Draws}
    (h : evalDealF s l' ds = .ok x' rest) : ∃ x, evalDeal s l ds = .ok x rest ∧ McLocalClose s.nPlayers x x' := by
  unfold evalDealF at h
  unfold evalDeal
  rw [hl.walk] at h
  cases hk : subC 5 s.fixedBoard.count with
  | none => rw [hk] at h; cases h
  | some k =>
    rw [hk] at h
    simp only at h ⊢
    cases hb : randomizeBoard k (l.walk.used ||| s.deadMask) s.fixedBoard ds with
    | more => rw [hb] at h; cases h
    | panic => rw [hb] at h; cases h
    | ok board ds' =>
      rw [hb] at h
      obtain ⟨h1, h2⟩ := Out.ok.inj h
      subst h1 h2
      exact ⟨_, rfl, hl.pc, rfl, evaluateHands_close h9 _ _ _ _ _ hl.stats⟩

theorem evalDeal_panic {s : Sim} {l l' : McLocal} {n : Nat} (hl : McLocalClose n l l') {ds : Draws}
    (h : evalDealF s l' ds = .panic) : evalDeal s l ds = .panic := by
  unfold evalDealF at h
  unfold evalDeal
  rw [hl.walk] at h
  cases hk : subC 5 s.fixedBoard.count with
  | none => rfl
  | some k =>
    rw [hk] at h
    simp only at h ⊢
    cases hb : randomizeBoard k (l.walk.used ||| s.deadMask) s.fixedBoard ds with
    | more => rw [hb] at h; cases h
    | panic => rfl
    | ok board ds' => rw [hb] at h; cases h

theorem McSharedClose.update {s : Sim} (hex : s.calcExact = false) (dev : ℚ → ℚ → Option ℚ) (prog : Option ℚ → Nat) (target : ℚ) (fin : Bool)
    {l l' : McLocal} {g g' : McShared} (hl : McLocalClose s.nPlayers l l') (hg : McSharedClose s.nPlayers g g') :
    McSharedClose s.nPlayers (g.update (fun _ => 0) 0 s fin l) (g'.updateF dev prog target s fin l') ∨
    (g'.updateF dev prog target s fin l').stopped = true ∧
      McSharedClose s.nPlayers { g.update (fun _ => 0) 0 s fin l with stopped := true } (g'.updateF dev prog target s fin l') := by
  have h1 := updateResults_close (fun _ => 0) dev s.calcExact hl.stats hg.results
  have h2 := hg.fresh.update (fun _ => 0) s.calcExact l.stats l.hands
  have h3 : (g'.updateF dev prog target s fin l').sent.length = (g.update (fun _ => 0) 0 s fin l).sent.length := by
    simp [McShared.updateF, McShared.update, hg.sent]
  by_cases hst : (g'.updateF dev prog target s fin l').stopped = true
  · exact Or.inr ⟨hst, hst, h1, h2, h3⟩
  · refine Or.inl ⟨?_, h1, h2, h3⟩
    rw [update_zero_stopped s hex, ← hg.stopped]
    rw [Bool.not_eq_true] at hst
    rw [hst]
    unfold McShared.updateF at hst
    simp only at hst
    split at hst
    · cases hst
    · exact hst.symm

/-- A step of a thread in the floating-point model is a step of the thread in the exact model, perhaps with a request to stop. -/
theorem mcStep_close {s : Sim} (h9 : s.nPlayers ≤ 9) (hex : s.calcExact = false) {dev : ℚ → ℚ → Option ℚ} {prog : Option ℚ → Nat} {target : ℚ}
    {l l' : McLocal} {g g' : McShared} (hl : McLocalClose s.nPlayers l l') (hg : McSharedClose s.nPlayers g g') {ds : Draws} {x' : McLocal}
    {y' : McShared} (h : mcStepF dev prog target s l' g' ds = .ok (x', y') []) :
    ∃ x y, mcStep (fun _ => 0) 0 s l g ds = .ok (x, y) [] ∧ McLocalClose s.nPlayers x x' ∧
      (McSharedClose s.nPlayers y y' ∨ McSharedClose s.nPlayers { y with stopped := true } y') := by
  unfold mcStepF at h
  rw [hl.pc] at h
  unfold mcStep at h ⊢
  rw [hl.pc, hl.walk] at h
  cases hpc : l.pc with
  | start =>
    rw [hpc] at h
    simp only at h ⊢
    cases hr : randomizeHoleCards s l.walk ds with
    | ok a rest =>
      obtain ⟨ok, w⟩ := a
      rw [hr] at h
      obtain ⟨h1, h2⟩ := Out.ok.inj h
      obtain ⟨h3, h4⟩ := Prod.mk.inj h1
      subst h2 h3 h4
      exact ⟨_, _, rfl, ⟨rfl, rfl, hl.stats⟩, Or.inl hg⟩
    | more => rw [hr] at h; cases h
    | panic =>
      rw [hr] at h
      obtain ⟨h1, _⟩ := Out.ok.inj h
      obtain ⟨h3, h4⟩ := Prod.mk.inj h1
      subst h3 h4
      exact ⟨_, _, rfl, ⟨rfl, rfl, hl.stats⟩, Or.inl hg⟩
  | eval =>
    rw [hpc] at h
    simp only at h ⊢
    cases hr : evalDealF s l' ds with
    | ok a rest =>
      obtain ⟨b, hb, hc⟩ := evalDeal_close h9 hl hr
      rw [hr] at h
      rw [hb]
      obtain ⟨h1, h2⟩ := Out.ok.inj h
      obtain ⟨h3, h4⟩ := Prod.mk.inj h1
      subst h2 h3 h4
      have he : a.stats = b.stats := hc.stats.1
      exact ⟨_, _, rfl, ⟨by rw [he], hc.walk, hc.stats⟩, Or.inl hg⟩
    | more => rw [hr] at h; cases h
    | panic =>
      rw [evalDeal_panic hl hr]
      rw [hr] at h
      obtain ⟨h1, _⟩ := Out.ok.inj h
      obtain ⟨h3, h4⟩ := Prod.mk.inj h1
      subst h3 h4
      exact ⟨_, _, rfl, ⟨rfl, rfl, hl.stats⟩, Or.inl hg⟩
  | flush =>
    rw [hpc] at h
    simp only at h ⊢
    obtain ⟨h1, h2⟩ := Out.ok.inj h
    obtain ⟨h3, h4⟩ := Prod.mk.inj h1
    subst h2 h3 h4
    refine ⟨_, _, rfl, ⟨rfl, rfl, init_close _⟩, ?_⟩
    exact (McSharedClose.update hex dev prog target false hl hg).imp_right And.right
  | check =>
    rw [hpc] at h
    simp only at h ⊢
    obtain ⟨h1, h2⟩ := Out.ok.inj h
    obtain ⟨h3, h4⟩ := Prod.mk.inj h1
    subst h2 h3 h4
    exact ⟨_, _, rfl, ⟨by rw [hg.stopped], rfl, hl.stats⟩, Or.inl hg⟩
  | restart =>
    rw [hpc] at h
    simp only at h ⊢
    cases hr : randomizeHoleCards s l.walk ds with
    | ok a rest =>
      obtain ⟨ok, w⟩ := a
      rw [hr] at h
      obtain ⟨h1, h2⟩ := Out.ok.inj h
      obtain ⟨h3, h4⟩ := Prod.mk.inj h1
      subst h2 h3 h4
      exact ⟨_, _, rfl, ⟨rfl, rfl, hl.stats⟩, Or.inl hg⟩
    | more => rw [hr] at h; cases h
    | panic =>
      rw [hr] at h
      obtain ⟨h1, _⟩ := Out.ok.inj h
      obtain ⟨h3, h4⟩ := Prod.mk.inj h1
      subst h3 h4
      exact ⟨_, _, rfl, ⟨rfl, rfl, hl.stats⟩, Or.inl hg⟩
  | move =>
    rw [hpc] at h
    simp only at h ⊢
    cases hr : sample s.combinedRanges.length ds with
    | ok i rest =>
      rw [hr] at h
      simp only at h ⊢
      cases hi : s.combinedRanges[i]? with
      | none =>
        rw [hi] at h
        obtain ⟨h1, h2⟩ := Out.ok.inj h
        obtain ⟨h3, h4⟩ := Prod.mk.inj h1
        subst h2 h3 h4
        exact ⟨_, _, rfl, ⟨rfl, rfl, hl.stats⟩, Or.inl hg⟩
      | some cr =>
        rw [hi] at h
        simp only at h ⊢
        cases hd : redeal cr i l.walk with
        | none =>
          rw [hd] at h
          obtain ⟨h1, h2⟩ := Out.ok.inj h
          obtain ⟨h3, h4⟩ := Prod.mk.inj h1
          subst h2 h3 h4
          exact ⟨_, _, rfl, ⟨rfl, rfl, hl.stats⟩, Or.inl hg⟩
        | some w =>
          rw [hd] at h
          obtain ⟨h1, h2⟩ := Out.ok.inj h
          obtain ⟨h3, h4⟩ := Prod.mk.inj h1
          subst h2 h3 h4
          exact ⟨_, _, rfl, ⟨rfl, rfl, hl.stats⟩, Or.inl hg⟩
    | more => rw [hr] at h; cases h
    | panic =>
      rw [hr] at h
      obtain ⟨h1, _⟩ := Out.ok.inj h
      obtain ⟨h3, h4⟩ := Prod.mk.inj h1
      subst h3 h4
      exact ⟨_, _, rfl, ⟨rfl, rfl, hl.stats⟩, Or.inl hg⟩
  | final =>
    rw [hpc] at h
    simp only at h ⊢
    obtain ⟨h1, h2⟩ := Out.ok.inj h
    obtain ⟨h3, h4⟩ := Prod.mk.inj h1
    subst h2 h3 h4
    refine ⟨_, _, rfl, ⟨rfl, rfl, hl.stats⟩, ?_⟩
    exact (McSharedClose.update hex dev prog target true hl hg).imp_right And.right
  | done =>
    rw [hpc] at h
    obtain ⟨h1, h2⟩ := Out.ok.inj h
    obtain ⟨h3, h4⟩ := Prod.mk.inj h1
    subst h2 h3 h4
    exact ⟨_, _, rfl, hl, Or.inl hg⟩
  | panicked =>
    rw [hpc] at h
    obtain ⟨h1, h2⟩ := Out.ok.inj h
    obtain ⟨h3, h4⟩ := Prod.mk.inj h1
    subst h2 h3 h4
    exact ⟨_, _, rfl, hl, Or.inl hg⟩

theorem mcLocals_update {n : Nat} {f f' : Nat → McLocal} (h : ∀ t, McLocalClose n (f t) (f' t)) (t : Nat) {x x' : McLocal}
    (hx : McLocalClose n x x') : ∀ i, McLocalClose n (Function.update f t x i) (Function.update f' t x' i) := by
  intro i
  by_cases hi : i = t
  · subst hi; rw [Function.update_self, Function.update_self]; exact hx
  · rw [Function.update_of_ne hi, Function.update_of_ne hi]; exact h i

/-- A run of the floating-point simulation is accompanied by a run of the exact model. -/
theorem McStepsF.follow {s : Sim} (h9 : s.nPlayers ≤ 9) (hex : s.calcExact = false) {dev : ℚ → ℚ → Option ℚ} {prog : Option ℚ → Nat}
    {target : ℚ} {nT : Nat} {u u' v' : McWorld} (hu : McWorldClose s.nPlayers u u') (h : McStepsF dev prog target s nT u' v') :
    ∃ v, McSteps (fun _ => 0) 0 s nT u v ∧ McWorldClose s.nPlayers v v' := by
  induction h with
  | refl => exact ⟨u, .refl, hu⟩
  | step _ hstep ih =>
    obtain ⟨v, h1, h2⟩ := ih
    cases hstep with
    | cancel => exact ⟨_, .step h1 (.cancel v), ⟨h2.locals, rfl, h2.shared.results, h2.shared.fresh, h2.shared.sent⟩⟩
    | thread t ht hpc ds l' g' hs =>
      obtain ⟨x, y, e1, e2, e3⟩ := mcStep_close h9 hex (h2.locals t) h2.shared hs
      rw [(h2.locals t).pc] at hpc
      have hstep := McSteps.step h1 (.thread v t ht hpc ds x y e1)
      have hloc := mcLocals_update h2.locals t e2
      rcases e3 with e3 | e3
      · exact ⟨_, hstep, hloc, e3⟩
      · exact ⟨_, hstep.step (.cancel _), hloc, e3⟩

theorem init_mcWorldClose {s : Sim} {r0 : Results} {flag : Nat} (h : startResults s = some (r0, flag)) (cancelled : Bool) :
    McWorldClose s.nPlayers (McWorld.init s r0 cancelled) (McWorld.init s r0 cancelled) :=
  ⟨fun _ => ⟨rfl, rfl, init_close _⟩, ⟨rfl, startResults_close h, startResults_fresh h, rfl⟩⟩

/-! ## The results -/

/-- In the final results no hand has more wins and ties than showdowns. -/
theorem Calc.counts_le {sqrt : ℚ → ℚ} {ex : Bool} {ranges : List (List Combo)} {b d : Nat} {r : Results} {s : Sim} {flag : Nat} {r0 : Results}
    {hist : List (Batch × HandStats)} {sd : List (List WHand × List Nat)} (h : Calc sqrt ex ranges b d r s flag r0 hist sd) {k : Nat}
    (hk : k < NUM_HANDS * ranges.length) : (r.handResults k).wins + (r.handResults k).ties ≤ (r.handResults k).total := by
  have hp : k / NUM_HANDS < ranges.length := Nat.div_lt_of_lt_mul hk
  have hj : k % NUM_HANDS < allHands.length := by rw [allHands_length]; exact Nat.mod_lt _ (by decide)
  refine h.wins_ties_le hp _ (List.mem_map.2 ⟨allHands[k % NUM_HANDS], List.getElem_mem _, ?_⟩)
  rw [getCardIndex_get, Nat.div_add_mod]

theorem finish_close {sqrt : ℚ → ℚ} {ex : Bool} {ranges : List (List Combo)} {b d : Nat} {s : Sim} {flag : Nat} {r0 x x' : Results}
    {hist : List (Batch × HandStats)} {sd : List (List WHand × List Nat)}
    (h : Calc sqrt ex ranges b d (finishResults s flag x) s flag r0 hist sd) (hx : ResClose s.nPlayers x x') (hf : Fresh s.nPlayers x) :
    OutClose ranges.length (finishResults s flag x) (finishResultsF s flag x') := by
  have hn := h.players
  have hfew := h.few
  rw [← hn]
  apply finishResults_close (by omega) flag hx ?_ hf.combos hf.boards hf.draws
  intro k
  by_cases hk : k < NUM_HANDS * s.nPlayers
  · have := h.counts_le (by rwa [hn] at hk)
    have hcell := (finishResults_counts s flag x).2.2.2.2 k
    have h1 := congrArg (fun c : Cell => c.1) hcell
    have h2 := congrArg (fun c : Cell => c.2.1) hcell
    have h3 := congrArg (fun c : Cell => c.2.2.1) hcell
    simp only [cellOf] at h1 h2 h3
    rwa [h1, h2, h3] at this
  · have := hf.rest k hk
    rw [this]
    exact le_rfl

variable {ranges : List (List Combo)} {b d nT : Nat} {cancelled stopped : Bool} {sent' : List Nat}

/-- Every result of the floating-point `exact_equity` is close to a result of the exact model. -/
theorem exactF_follows (hwf : ∀ r ∈ ranges, WfRange r) (hb : CardMask b) (hd : CardMask d) {r' : Results}
    (h : ExactEquityF ranges b d nT cancelled stopped (.ok r') sent') :
    ∃ r sent total, ExactEquity ranges b d nT cancelled stopped (.ok r) sent ∧ OutClose ranges.length r r' ∧ SentClose total total sent sent' ∧
      ∃ s, prepareExact ranges b d = .ok s ∧ s.preflopComboCount = some total := by
  unfold ExactEquityF at h
  split at h
  · cases h.1
  · rename_i s hok
    obtain ⟨r0, flag, ds, total, size, w', h1, h2, h3, h4, h5, h6, h7, h8, h9⟩ := h
    have hready : Ready ranges b d s ds total size := ⟨hwf, hb, hd, hok, h2, h3, h4⟩
    obtain ⟨hf1, _, _, _, _, _, hf7, _⟩ := hready.fields
    obtain ⟨w, hw, hc⟩ := StepsF.follow (by omega) (init_worldClose total h1 cancelled) h5
    have hdone : ∀ t < nT, (w.locals t).pc = .done := fun t ht => by rw [← (hc.locals t).pc]; exact h6 t ht
    have hE : ExactEquity ranges b d nT cancelled stopped (.ok (finishResults s flag w.shared.results)) w.shared.sent := by
      unfold ExactEquity
      rw [hok]
      exact ⟨r0, flag, ds, total, size, w, h1, h2, h3, h4, hw, hdone, rfl, rfl, by rw [h9, hc.shared.stopped]⟩
    refine ⟨_, _, total, hE, ?_, ?_, s, hok, h3⟩
    · obtain ⟨hist, D, g1, g2, g3, gb, g4, g5, g6⟩ := run_result hready.processes hready.size_pos hw hdone
      have hrun : Run ranges b d nT w.shared.stopped (finishResults s flag w.shared.results) s ds total size flag r0 hist D :=
        ⟨hready, h1, by rw [g1], g3, gb, g4, g5, g6⟩
      obtain ⟨_, _, hcalc⟩ := hrun.calc
      injection h7 with h7
      rw [h7]
      exact finish_close hcalc hc.shared.results hc.shared.fresh
    · rw [h8]
      exact hc.shared.sent.mono hc.shared.le

/-- Every result of the exact model is close to a result of the floating-point `exact_equity`. -/
theorem exact_follows (hwf : ∀ r ∈ ranges, WfRange r) (hb : CardMask b) (hd : CardMask d) {r : Results} {sent : List Nat}
    (h : ExactEquity ranges b d nT cancelled stopped (.ok r) sent) :
    ∃ r' sent', ExactEquityF ranges b d nT cancelled stopped (.ok r') sent' ∧ OutClose ranges.length r r' := by
  unfold ExactEquity at h
  split at h
  · cases h.1
  · rename_i s hok
    obtain ⟨r0, flag, ds, total, size, w, h1, h2, h3, h4, h5, h6, h7, h8, h9⟩ := h
    have hready : Ready ranges b d s ds total size := ⟨hwf, hb, hd, hok, h2, h3, h4⟩
    obtain ⟨hf1, _, _, _, _, _, hf7, _⟩ := hready.fields
    obtain ⟨w', hw, hc⟩ := Steps.follow (by omega) (init_worldClose total h1 cancelled) h5
    have hdone : ∀ t < nT, (w'.locals t).pc = .done := fun t ht => by rw [(hc.locals t).pc]; exact h6 t ht
    refine ⟨finishResultsF s flag w'.shared.results, w'.shared.sent, ?_, ?_⟩
    · unfold ExactEquityF
      rw [hok]
      exact ⟨r0, flag, ds, total, size, w', h1, h2, h3, h4, hw, hdone, rfl, rfl, by rw [h9, hc.shared.stopped]⟩
    · obtain ⟨hist, D, g1, g2, g3, gb, g4, g5, g6⟩ := run_result hready.processes hready.size_pos h5 h6
      injection h7 with h7
      have hrun : Run ranges b d nT w.shared.stopped r s ds total size flag r0 hist D :=
        ⟨hready, h1, by rw [h7, g1], g3, gb, g4, g5, g6⟩
      obtain ⟨_, _, hcalc⟩ := hrun.calc
      subst h7
      exact finish_close hcalc hc.shared.results hc.shared.fresh

/-- Every result of the floating-point `approx_equity` is close to a result of the exact model (in which the calculation is stopped from
outside where the floating-point model stops by itself). -/
theorem approxF_follows (hwf : ∀ r ∈ ranges, WfRange r) (hb : CardMask b) (hd : CardMask d) {dev : ℚ → ℚ → Option ℚ} {prog : Option ℚ → Nat}
    {target : ℚ} {r' : Results} (h : ApproxEquityF dev prog ranges b d nT target cancelled (.ok r') sent') :
    ∃ r sent, ApproxEquity (fun _ => 0) ranges b d nT 0 cancelled (.ok r) sent ∧ OutClose ranges.length r r' ∧ sent'.length = sent.length := by
  obtain ⟨p, hp, h⟩ := h
  cases p with
  | error e => cases h.1
  | ok s =>
    obtain ⟨r0, flag, w', h1, h2, h3, h4, h5⟩ := h
    have hr : McReady ranges b d s := ⟨hwf, hb, hd, hp⟩
    obtain ⟨f1, _, _, _, _, _, f7, _⟩ := hr.fields
    have hex : s.calcExact = false := by
      obtain ⟨s0, _, _, e⟩ := hr.exact
      rw [e]
    obtain ⟨w, hw, hc⟩ := McStepsF.follow (by omega) hex (init_mcWorldClose h1 cancelled) h2
    have hdone : ∀ t < nT, (w.locals t).pc = .done := fun t ht => by rw [← (hc.locals t).pc]; exact h3 t ht
    have hA : ApproxEquity (fun _ => 0) ranges b d nT 0 cancelled (.ok (finishResults s flag w.shared.results)) w.shared.sent :=
      ⟨_, hp, r0, flag, w, h1, hw, hdone, rfl, rfl⟩
    refine ⟨_, _, hA, ?_, by rw [h5, hc.shared.sent]⟩
    obtain ⟨hist, Dr, Dl, hi⟩ := McInv.steps hr hw
    have hrun : McRun (fun _ => 0) ranges b d (finishResults s flag w.shared.results) s flag r0 hist Dr :=
      ⟨hr, h1, by rw [hi.res], hi.hids, hi.hbatch, hi.hsum, hi.hcount, hi.legalR⟩
    injection h4 with h4
    rw [h4]
    exact finish_close hrun.calc hc.shared.results hc.shared.fresh

end Pokers
