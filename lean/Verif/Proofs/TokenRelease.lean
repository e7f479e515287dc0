import Verif.Proofs.ReleaseZero
import Verif.Proofs.Rounding
import Verif.Model.TokenRelease
/-!
A calculation of a release build whose caller stores any values in the cancel token, followed by one whose caller only sets it, at
the end, as in `Proofs/Token.lean`.  The numbers in the results are `u64` and `f64` numbers already, so adding nothing to them does
not change them.
-/
namespace Pokers

variable {s : Sim} {ds : List DividerU64} {total size nT : Nat} {r0 : Results}

/-- The numbers in the results are `u64` and `f64` numbers. -/
structure Stored (r : Results) : Prop where
  wins : ∀ p, r.wins p < 2 ^ 64
  ties : ∀ p, fl (r.ties p) = r.ties p
  masks : ∀ i, r.winsByMask i < 2 ^ 64
  evals : r.evalCount < 2 ^ 64
  handWins : ∀ k, (r.handResults k).wins < 2 ^ 64
  handTies : ∀ k, (r.handResults k).ties < 2 ^ 64
  handTotal : ∀ k, (r.handResults k).total < 2 ^ 64
  handShare : ∀ k, fl (r.handResults k).correctedTies = (r.handResults k).correctedTies

theorem startResults_stored {flag : Nat} (h : startResults s = some (r0, flag)) : Stored r0 := by
  obtain ⟨_, _, s3, _⟩ := startResults_counts h
  obtain ⟨z1, z2, z3, z4, z5⟩ := startResults_zero h
  refine ⟨fun p => by rw [z1]; decide, fun p => by rw [z2, fl_zero], fun i => by rw [z3]; decide, by rw [z4]; decide,
    fun k => by rw [(z5 k).1]; decide, fun k => by rw [(z5 k).2.1]; decide, fun k => by rw [(z5 k).2.2]; decide, fun k => ?_⟩
  have hc : cellOf (r0.handResults k) = 0 := congrFun (congrArg (fun x : FT => x.1.2) s3) k
  have : (r0.handResults k).correctedTies = 0 := congrArg (fun c : Cell => c.2.2.2) hc
  rw [this, fl_zero]

def StoredMerge (m : Merge) : Prop := (∀ p, m.wins p < 2 ^ 64) ∧ (∀ p, fl (m.ties p) = m.ties p) ∧ ∀ i, m.winsByMask i < 2 ^ 64

theorem update_always {α : Type} {P : α → Prop} {f : Nat → α} (h : ∀ p, P (f p)) {q : Nat} {x : α} (hx : P x) :
    ∀ p, P (Function.update f q x p) := by
  intro p
  rw [Function.update_apply]
  split
  · exact hx
  · exact h p

theorem mergePlayersR_stored (n : Nat) (b : Batch) (i : Nat) {m : Merge} (h : StoredMerge m) : StoredMerge (mergePlayersR n b i m).1 := by
  unfold mergePlayersR
  simp only
  refine foldl_always (P := fun x : Merge × Nat => StoredMerge x.1) ?_ _ (m, 0) h
  rintro ⟨m, actual⟩ j hm
  simp only
  split
  · split
    · refine ⟨?_, hm.2.1, hm.2.2⟩
      exact update_always (P := fun x => x < 2 ^ 64) hm.1 (wrap_lt _)
    · refine ⟨hm.1, ?_, hm.2.2⟩
      exact update_always (P := fun x => fl x = x) hm.2.1 (fl_fl _)
  · exact hm

theorem mergeMasksR_stored (n : Nat) (b : Batch) {m : Merge} (h : StoredMerge m) : StoredMerge (mergeMasksR n b m) := by
  unfold mergeMasksR
  refine foldl_always (P := StoredMerge) ?_ _ m h
  intro m i hm
  have h1 : StoredMerge (mergePlayersR n b i { m with batchHands := wrap (m.batchHands + b.winsByMask i) }).1 :=
    mergePlayersR_stored n b i hm
  exact ⟨h1.1, h1.2.1, update_always (P := fun x => x < 2 ^ 64) h1.2.2 (wrap_lt _)⟩

theorem updateResultsR_stored (n : Nat) (b : Batch) (hs : HandStats) {r : Results} (h : Stored r) : Stored (updateResultsR n b hs r) := by
  have hm : StoredMerge (mergeMasksR n b ⟨r.wins, r.ties, r.winsByMask, 0, 0⟩) := mergeMasksR_stored n b ⟨h.wins, h.ties, h.masks⟩
  refine ⟨hm.1, hm.2.1, hm.2.2, wrap_lt _, fun k => ?_, fun k => ?_, fun k => ?_, fun k => ?_⟩ <;>
    unfold updateResultsR <;> simp only <;> split
  · exact wrap_lt _
  · exact h.handWins k
  · exact wrap_lt _
  · exact h.handTies k
  · exact wrap_lt _
  · exact h.handTotal k
  · exact fl_fl _
  · exact h.handShare k

/-- An empty batch leaves the sums as they are. -/
def SameMerge (m m' : Merge) : Prop := m'.wins = m.wins ∧ m'.ties = m.ties ∧ m'.winsByMask = m.winsByMask

theorem mergePlayersR_blank (n i k : Nat) {m0 m : Merge} (h0 : StoredMerge m0) (h : SameMerge m0 m) :
    SameMerge m0 (mergePlayersR n (Batch.init k) i m).1 := by
  unfold mergePlayersR
  simp only
  refine foldl_always (P := fun x : Merge × Nat => SameMerge m0 x.1) ?_ _ (m, 0) h
  rintro ⟨m, actual⟩ j ⟨e1, e2, e3⟩
  have hz : (Batch.init k).winsByMask i = 0 := rfl
  simp only
  split
  · split
    · refine ⟨?_, e2, e3⟩
      simp only at e1
      simp only [hz, Nat.add_zero, e1, wrap_of_lt (h0.1 _), Function.update_eq_self]
    · refine ⟨e1, ?_, e3⟩
      simp only at e2
      simp only [hz, Nat.zero_div, Nat.cast_zero, fl_zero, add_zero, e2, h0.2.1, Function.update_eq_self]
  · exact ⟨e1, e2, e3⟩

theorem mergeMasksR_blank (n k : Nat) {m : Merge} (h0 : StoredMerge m) : SameMerge m (mergeMasksR n (Batch.init k) m) := by
  unfold mergeMasksR
  refine foldl_always (P := SameMerge m) ?_ _ m ⟨rfl, rfl, rfl⟩
  intro m' i h
  have h1 : SameMerge m (mergePlayersR n (Batch.init k) i { m' with batchHands := wrap (m'.batchHands + (Batch.init k).winsByMask i) }).1 :=
    mergePlayersR_blank n i k h0 h
  refine ⟨h1.1, h1.2.1, ?_⟩
  have hz : ∀ x, x + (Batch.init k).winsByMask i = x := fun x => rfl
  simp only [hz] at h1 ⊢
  rw [h1.2.2, wrap_of_lt (h0.2.2 _), Function.update_eq_self]

/-- Merging an empty batch does not change the results. -/
def SettledR (n : Nat) (r : Results) : Prop := updateResultsR n (Batch.init n) HandStats.init r = r

/-- After a batch has been merged, merging an empty one changes nothing. -/
theorem settledR_update (n : Nat) (b : Batch) (hb : HandStats) {r : Results} (h : Stored r) : SettledR n (updateResultsR n b hb r) := by
  have hr := updateResultsR_stored n b hb h
  obtain ⟨b1, b2, b3⟩ := mergeMasksR_blank n n (m := ⟨(updateResultsR n b hb r).wins, (updateResultsR n b hb r).ties,
    (updateResultsR n b hb r).winsByMask, 0, 0⟩) ⟨hr.wins, hr.ties, hr.masks⟩
  have hh : ∀ k, (if k < NUM_HANDS * n then ((updateResultsR n b hb r).handResults k).addAssignR (HandStats.init k)
      else (updateResultsR n b hb r).handResults k) = (updateResultsR n b hb r).handResults k := by
    intro k
    by_cases hk : k < NUM_HANDS * n
    · rw [if_pos hk]
      have h1 := hr.handWins k
      have h2 := hr.handTies k
      have h3 := hr.handTotal k
      have h4 := hr.handShare k
      have e : (updateResultsR n b hb r).handResults k = (r.handResults k).addAssignR (hb k) := by
        show (if k < NUM_HANDS * n then _ else _) = _
        rw [if_pos hk]
      rw [e] at h1 h2 h3 h4 ⊢
      simp only [UnitResults.addAssignR] at h1 h2 h3 h4 ⊢
      simp only [HandStats.init, UnitResults.default, add_zero, wrap_of_lt h1, wrap_of_lt h2, wrap_of_lt h3, h4]
    · rw [if_neg hk]
  have he : wrap ((updateResultsR n b hb r).evalCount + (Batch.init n).evalCount) = (updateResultsR n b hb r).evalCount := wrap_of_lt hr.evals
  unfold SettledR
  generalize updateResultsR n b hb r = r1 at *
  unfold updateResultsR
  simp only [b1, b2, b3, he, hh]

/-- The state after a step of thread `t`. -/
def World.nextR (s : Sim) (ds : List DividerU64) (total size : Nat) (w : World) (t : Nat) : World :=
  { locals := Function.update w.locals t (threadStepR s ds total size (w.locals t) w.shared).1,
    shared := (threadStepR s ds total size (w.locals t) w.shared).2 }

/-- `w` is a state of the calculation with a free token, `v` the state of the other one at the same time.  `p t` is the number of
steps that thread `t` lags behind in `v`: zero, or it waits before it reads the token, while in `w` it has found the token set
(`1`) and has then finished (`2`). -/
structure LagsR (s : Sim) (p : Nat → Nat) (w v : World) : Prop where
  pos : w.shared.enumPos = v.shared.enumPos
  res : w.shared.results = v.shared.results
  off : v.shared.stopped = false
  stored : Stored v.shared.results
  live : ∀ t, p t = 0 → w.locals t = v.locals t
  last : ∀ t, p t = 1 → w.locals t = { v.locals t with pc := .final }
  gone : ∀ t, p t = 2 → (w.locals t).pc = .done
  le : ∀ t, p t ≤ 2
  held : ∀ t, 0 < p t → (v.locals t).pc = .check
  flushed : ∀ t, (v.locals t).pc = .check → (v.locals t).stats = Batch.init s.nPlayers ∧ (v.locals t).hands = HandStats.init ∧
    SettledR s.nPlayers v.shared.results

theorem lagsR_init (s : Sim) {r0 : Results} (h0 : Stored r0) (cancelled : Bool) :
    LagsR s (fun _ => 0) (World.init s r0 cancelled) (World.init s r0 false) where
  pos := rfl
  res := rfl
  off := rfl
  stored := h0
  live _ _ := rfl
  last _ h := by cases h
  gone _ h := by cases h
  le _ := Nat.zero_le _
  held _ h := absurd h (Nat.lt_irrefl 0)
  flushed _ h := by cases h

theorem LagsR.store {p : Nat → Nat} {w v : World} (h : LagsR s p w v) (x : Bool) :
    LagsR s p { w with shared := { w.shared with stopped := x } } v :=
  { h with pos := h.pos, res := h.res, live := h.live, last := h.last, gone := h.gone }

/-- A thread that does not find the token set makes the same step in both. -/
theorem threadStepR_free (l : Local) {g g' : Shared} (hp : g.enumPos = g'.enumPos) (hr : g.results = g'.results)
    (h : l.pc = .check → g.stopped = g'.stopped) :
    (threadStepR s ds total size l g).1 = (threadStepR s ds total size l g').1 ∧
    (threadStepR s ds total size l g).2.enumPos = (threadStepR s ds total size l g').2.enumPos ∧
    (threadStepR s ds total size l g).2.results = (threadStepR s ds total size l g').2.results := by
  unfold threadStepR
  split
  · rw [hp]
    exact ⟨rfl, rfl, hr⟩
  · split
    · exact ⟨rfl, hp, hr⟩
    · dsimp only
      split <;> exact ⟨rfl, hp, hr⟩
  · refine ⟨rfl, hp, ?_⟩
    simp only [Shared.updateR, hr]
  · rename_i hc
    rw [h hc]
    split <;> exact ⟨rfl, hp, hr⟩
  · refine ⟨rfl, hp, ?_⟩
    simp only [Shared.updateR, hr]
  · exact ⟨rfl, hp, hr⟩
  · exact ⟨rfl, hp, hr⟩

/-- What a step leaves: the token, and results that are either unchanged or settled. -/
theorem threadStepR_keeps (l : Local) {g : Shared} (hg : Stored g.results) :
    Stored (threadStepR s ds total size l g).2.results ∧
    (threadStepR s ds total size l g).2.stopped = g.stopped ∧
    ((threadStepR s ds total size l g).2.results = g.results ∨ SettledR s.nPlayers (threadStepR s ds total size l g).2.results) ∧
    ((threadStepR s ds total size l g).1.pc = .check → (threadStepR s ds total size l g).1.stats = Batch.init s.nPlayers ∧
      (threadStepR s ds total size l g).1.hands = HandStats.init ∧ SettledR s.nPlayers (threadStepR s ds total size l g).2.results) := by
  have hadv : ∀ l : Local, l.advance.pc ≠ .check := by
    intro l
    unfold Local.advance
    dsimp only
    split <;> decide
  refine ⟨?_, ?_⟩
  · unfold threadStepR
    split
    · exact hg
    · split
      · exact hg
      · dsimp only
        split <;> exact hg
    · exact updateResultsR_stored _ _ _ hg
    · split <;> exact hg
    · exact updateResultsR_stored _ _ _ hg
    · exact hg
    · exact hg
  unfold threadStepR
  split
  · refine ⟨rfl, .inl rfl, fun h => ?_⟩
    dsimp only at h
    split at h <;> cases h
  · split
    · exact ⟨rfl, .inl rfl, fun h => by cases h⟩
    · dsimp only
      split
      · exact ⟨rfl, .inl rfl, fun h => by cases h⟩
      · exact ⟨rfl, .inl rfl, fun h => absurd h (hadv _)⟩
  · have : SettledR s.nPlayers (g.updateR s total l).results := by
      unfold Shared.updateR
      exact settledR_update _ _ _ hg
    exact ⟨rfl, .inr this, fun _ => ⟨rfl, rfl, this⟩⟩
  · split
    · exact ⟨rfl, .inl rfl, fun h => by cases h⟩
    · exact ⟨rfl, .inl rfl, fun h => absurd h (hadv _)⟩
  · have : SettledR s.nPlayers (g.updateR s total l).results := by
      unfold Shared.updateR
      exact settledR_update _ _ _ hg
    exact ⟨rfl, .inr this, fun h => by cases h⟩
  · rename_i h
    exact ⟨rfl, .inl rfl, fun h' => by rw [h] at h'; cases h'⟩
  · rename_i h
    exact ⟨rfl, .inl rfl, fun h' => by rw [h] at h'; cases h'⟩

/-- A step of a thread that lags behind, or that reads the token and finds it set: the other calculation waits. -/
theorem LagsR.wait {p : Nat → Nat} {w v : World} (h : LagsR s p w v) {t : Nat}
    (hpc : (w.locals t).pc ≠ .done) (hc : 0 < p t ∨ ((w.locals t).pc = .check ∧ w.shared.stopped = true)) :
    LagsR s (Function.update p t (p t + 1)) (w.nextR s ds total size t) v := by
  have hle : p t = 0 ∨ p t = 1 := by
    have h2 := h.le t
    have : p t ≠ 2 := fun e => hpc (h.gone t e)
    omega
  rcases hle with h0 | h1
  · obtain ⟨hck, hst⟩ := hc.resolve_left (by omega)
    have hl := h.live t h0
    have hstep : threadStepR s ds total size (w.locals t) w.shared = ({ w.locals t with pc := .final }, w.shared) := by
      unfold threadStepR
      rw [hck]
      simp only [hst, if_true]
    have hn : w.nextR s ds total size t = { locals := Function.update w.locals t { w.locals t with pc := .final }, shared := w.shared } := by
      unfold World.nextR
      rw [hstep]
    rw [hn, h0]
    refine ⟨h.pos, h.res, h.off, h.stored, ?_, ?_, ?_, ?_, ?_, h.flushed⟩
    · intro u hu
      by_cases e : u = t
      · subst e; rw [Function.update_self] at hu; cases hu
      · rw [Function.update_of_ne e] at hu
        simp only [Function.update_of_ne e]
        exact h.live u hu
    · intro u hu
      by_cases e : u = t
      · subst e; simp only [Function.update_self, hl]
      · rw [Function.update_of_ne e] at hu
        simp only [Function.update_of_ne e]
        exact h.last u hu
    · intro u hu
      by_cases e : u = t
      · subst e; rw [Function.update_self] at hu; cases hu
      · rw [Function.update_of_ne e] at hu
        simp only [Function.update_of_ne e]
        exact h.gone u hu
    · intro u
      by_cases e : u = t
      · subst e; rw [Function.update_self]; omega
      · rw [Function.update_of_ne e]; exact h.le u
    · intro u hu
      by_cases e : u = t
      · subst e; rw [← hl]; exact hck
      · rw [Function.update_of_ne e] at hu; exact h.held u hu
  · have hl := h.last t h1
    have hh := h.held t (by omega)
    obtain ⟨f1, f2, f3⟩ := h.flushed t hh
    have hstep : threadStepR s ds total size (w.locals t) w.shared =
        ({ w.locals t with pc := .done }, w.shared.updateR s total (w.locals t)) := by
      unfold threadStepR
      rw [show (w.locals t).pc = .final by rw [hl]]
    have hn : w.nextR s ds total size t =
        { locals := Function.update w.locals t { w.locals t with pc := .done }, shared := w.shared.updateR s total (w.locals t) } := by
      unfold World.nextR
      rw [hstep]
    rw [hn, h1]
    refine ⟨h.pos, ?_, h.off, h.stored, ?_, ?_, ?_, ?_, ?_, h.flushed⟩
    · simp only [Shared.updateR, hl, f1, f2, h.res]
      exact f3
    · intro u hu
      by_cases e : u = t
      · subst e; rw [Function.update_self] at hu; cases hu
      · rw [Function.update_of_ne e] at hu
        simp only [Function.update_of_ne e]
        exact h.live u hu
    · intro u hu
      by_cases e : u = t
      · subst e; rw [Function.update_self] at hu; cases hu
      · rw [Function.update_of_ne e] at hu
        simp only [Function.update_of_ne e]
        exact h.last u hu
    · intro u hu
      by_cases e : u = t
      · subst e; simp only [Function.update_self]
      · rw [Function.update_of_ne e] at hu
        simp only [Function.update_of_ne e]
        exact h.gone u hu
    · intro u
      by_cases e : u = t
      · subst e; rw [Function.update_self]
      · rw [Function.update_of_ne e]; exact h.le u
    · intro u hu
      by_cases e : u = t
      · subst e; exact hh
      · rw [Function.update_of_ne e] at hu; exact h.held u hu

/-- Any other step happens in both. -/
theorem LagsR.both {p : Nat → Nat} {w v : World} (h : LagsR s p w v) {t : Nat} (h0 : p t = 0)
    (hc : ¬ ((w.locals t).pc = .check ∧ w.shared.stopped = true)) :
    LagsR s p (w.nextR s ds total size t) (v.nextR s ds total size t) := by
  have hl := h.live t h0
  have hsame := threadStepR_free (s := s) (ds := ds) (total := total) (size := size) (w.locals t) h.pos h.res (fun e => by
    rw [h.off]
    by_contra hne
    exact hc ⟨e, by simpa using hne⟩)
  obtain ⟨e1, e2, e3⟩ := hsame
  rw [hl] at e1 e2 e3
  obtain ⟨k0, k1, k2, k3⟩ := threadStepR_keeps (ds := ds) (total := total) (size := size) (v.locals t) h.stored
  unfold World.nextR
  rw [hl]
  refine ⟨e2, e3, k1.trans h.off, k0, ?_, ?_, ?_, h.le, ?_, ?_⟩
  · intro u hu
    by_cases e : u = t
    · subst e; simp only [Function.update_self]; exact e1
    · simp only [Function.update_of_ne e]; exact h.live u hu
  · intro u hu
    have e : u ≠ t := fun e => by subst e; omega
    simp only [Function.update_of_ne e]; exact h.last u hu
  · intro u hu
    have e : u ≠ t := fun e => by subst e; omega
    simp only [Function.update_of_ne e]; exact h.gone u hu
  · intro u hu
    have e : u ≠ t := fun e => by subst e; omega
    simp only [Function.update_of_ne e]; exact h.held u hu
  · intro u hu
    by_cases e : u = t
    · subst e; simp only [Function.update_self] at hu ⊢; exact k3 hu
    · simp only [Function.update_of_ne e] at hu ⊢
      obtain ⟨f1, f2, f3⟩ := h.flushed u hu
      refine ⟨f1, f2, ?_⟩
      rcases k2 with k2 | k2
      · rw [k2]; exact f3
      · exact k2

/-- Every state of the calculation with a free token has a counterpart. -/
theorem OwnerStepsR.lags (h0 : Stored r0) {cancelled seen : Bool} {w : World}
    (h : OwnerStepsR s ds total size nT (World.init s r0 cancelled) seen w) :
    ∃ p v, StepsR s ds total size nT (World.init s r0 false) v ∧ LagsR s p w v ∧ (seen = false → ∀ t, p t = 0) := by
  induction h with
  | refl => exact ⟨fun _ => 0, _, .refl, lagsR_init _ h0 _, fun _ _ => rfl⟩
  | @step _ _ w' _ hs hstep ih =>
    obtain ⟨p, v, hv, hl, hseen⟩ := ih
    cases hstep with
    | store _ x =>
      refine ⟨p, v, hv, hl.store x, fun h => hseen ?_⟩
      simpa using h
    | thread _ t ht hpc =>
      by_cases hw : 0 < p t ∨ ((w'.locals t).pc = .check ∧ w'.shared.stopped = true)
      · refine ⟨_, v, hv, hl.wait hpc.1 hw, ?_⟩
        intro h
        rw [Bool.or_eq_false_iff] at h
        exfalso
        rcases hw with hw | ⟨h1, h2⟩
        · have := hseen h.1 t
          omega
        · rw [h1, h2] at h
          exact absurd h.2 (by decide)
      · have h0 : p t = 0 := by
          by_contra hne
          exact hw (.inl (Nat.pos_of_ne_zero hne))
        refine ⟨p, _, .step hv (.thread v t ht (by rw [← hl.live t h0]; exact hpc)),
          hl.both h0 (fun h => hw (.inr h)), fun h => hseen ?_⟩
        exact (Bool.or_eq_false_iff.1 h).1

/-- Threads that wait before they read the token can all finish once it is set, without changing the results. -/
theorem releaseR_held {v : World} (hset : v.shared.stopped = true)
    (hall : ∀ t < nT, (v.locals t).pc = .done ∨ (v.locals t).pc = .check)
    (hfl : ∀ t, (v.locals t).pc = .check → (v.locals t).stats = Batch.init s.nPlayers ∧ (v.locals t).hands = HandStats.init ∧
      SettledR s.nPlayers v.shared.results) :
    ∃ u, StepsR s ds total size nT v u ∧ (∀ t < nT, (u.locals t).pc = .done) ∧ u.shared.results = v.shared.results ∧
      u.shared.stopped = true := by
  have key : ∀ m ≤ nT, ∃ u, StepsR s ds total size nT v u ∧ (∀ t < m, (u.locals t).pc = .done) ∧
      (∀ t, m ≤ t → u.locals t = v.locals t) ∧ u.shared.results = v.shared.results ∧ u.shared.stopped = true := by
    intro m
    induction m with
    | zero => intro _; exact ⟨v, .refl, fun t h => absurd h (Nat.not_lt_zero t), fun _ _ => rfl, rfl, hset⟩
    | succ m ih =>
      intro hm
      obtain ⟨u, h1, h2, h3, h4, h5⟩ := ih (by omega)
      have hum := h3 m le_rfl
      rcases hall m (by omega) with hd | hc
      · refine ⟨u, h1, fun t ht => ?_, fun t ht => h3 t (by omega), h4, h5⟩
        rcases Nat.lt_succ_iff_lt_or_eq.1 ht with ht | rfl
        · exact h2 t ht
        · rw [hum]; exact hd
      · obtain ⟨f1, f2, f3⟩ := hfl m hc
        have hs1 : StepR s ds total size nT u (u.nextR s ds total size m) :=
          .thread u m (by omega) (by rw [hum, hc]; decide)
        have e1 : u.nextR s ds total size m =
            { locals := Function.update u.locals m { v.locals m with pc := .final }, shared := u.shared } := by
          unfold World.nextR threadStepR
          rw [hum, hc]
          simp only [h5, if_true]
        rw [e1] at hs1
        have hs2 := StepR.thread (s := s) (dividers := ds) (total := total) (size := size) (nThreads := nT)
          (⟨Function.update u.locals m { v.locals m with pc := .final }, u.shared⟩ : World) m (by omega)
          (by simp only [Function.update_self]; decide)
        simp only [Function.update_self, threadStepR, Function.update_idem] at hs2
        refine ⟨_, .step (.step h1 hs1) hs2, ?_, ?_, ?_, h5⟩
        · intro t ht
          rcases Nat.lt_succ_iff_lt_or_eq.1 ht with ht | rfl
          · simp only [Function.update_of_ne (by omega : t ≠ m)]
            exact h2 t ht
          · simp only [Function.update_self]
        · intro t ht
          simp only [Function.update_of_ne (by omega : t ≠ m)]
          exact h3 t (by omega)
        · simp only [Shared.updateR, f1, f2, h4]
          exact f3
  obtain ⟨u, h1, h2, _, h4, h5⟩ := key nT le_rfl
  exact ⟨u, h1, h2, h4, h5⟩

/-- What a finished calculation with a free token has counted, a calculation with a token that is at most set at the end has
counted as well; and it is set only if a thread found it set. -/
theorem OwnerStepsR.finished (h0 : Stored r0) {cancelled seen : Bool} {w : World}
    (h : OwnerStepsR s ds total size nT (World.init s r0 cancelled) seen w) (hdone : ∀ t < nT, (w.locals t).pc = .done) :
    ∃ u, StepsR s ds total size nT (World.init s r0 false) u ∧ (∀ t < nT, (u.locals t).pc = .done) ∧
      u.shared.results = w.shared.results ∧ u.shared.stopped = seen := by
  obtain ⟨p, v, hv, hl, hseen⟩ := h.lags h0
  cases seen with
  | false =>
    exact ⟨v, hv, fun t ht => by rw [← hl.live t (hseen rfl t)]; exact hdone t ht, hl.res.symm, hl.off⟩
  | true =>
    have hall : ∀ t < nT, (v.locals t).pc = .done ∨ (v.locals t).pc = .check := by
      intro t ht
      by_cases h0 : p t = 0
      · left; rw [← hl.live t h0]; exact hdone t ht
      · right; exact hl.held t (Nat.pos_of_ne_zero h0)
    obtain ⟨u, h1, h2, h3, h4⟩ := releaseR_held (ds := ds) (total := total) (size := size)
      (v := { v with shared := { v.shared with stopped := true } }) rfl hall hl.flushed
    exact ⟨u, (StepsR.step hv (.cancel v)).trans h1, h2, h3.trans hl.res.symm, h4⟩

/-- Setting the token is a special case of storing a value. -/
theorem StepsR.owner {w v : World} (h : StepsR s ds total size nT w v) : ∃ seen, OwnerStepsR s ds total size nT w seen v := by
  induction h with
  | refl => exact ⟨false, .refl⟩
  | step _ hs ih =>
    obtain ⟨a, ih⟩ := ih
    cases hs with
    | thread t ht hpc => exact ⟨_, .step ih (.thread _ t ht hpc)⟩
    | cancel => exact ⟨_, .step ih (.store _ true)⟩

end Pokers
