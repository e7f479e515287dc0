import Verif.Proofs.Progress
import Verif.Model.Token
/-!
A calculation whose caller stores any values in the cancel token, followed by one whose caller only sets it, at the end.  A thread
that finds the token set has just handed over its counts, so it only has an empty batch left to merge; in the other calculation
it waits until all other threads have finished.
-/
namespace Pokers
open Finset

variable {s : Sim} {ds : List DividerU64} {total size nT c : Nat} {r0 : Results}

theorem foldl_fixed {α β : Type} (f : α → β → α) (a : α) (l : List β) (h : ∀ x ∈ l, f a x = a) : l.foldl f a = a := by
  induction l with
  | nil => rfl
  | cons x xs ih =>
    rw [List.foldl_cons, h x (List.mem_cons_self ..)]
    exact ih fun y hy => h y (List.mem_cons_of_mem _ hy)

theorem mergePlayers_blank (n i k : Nat) (m : Merge) : (mergePlayers n (Batch.init k) i m).1 = m := by
  unfold mergePlayers
  have : ∀ (l : List Nat) (a : Nat), (l.foldl (fun (x : Merge × Nat) j =>
      if i &&& (1 <<< j) ≠ 0 then
        ((if countOnes i = 1 then
          { x.1 with
            wins := Function.update x.1.wins ((Batch.init k).playerIds j) (x.1.wins ((Batch.init k).playerIds j) + (Batch.init k).winsByMask i),
            batchEquity := if (Batch.init k).playerIds j = 0 then x.1.batchEquity + ((Batch.init k).winsByMask i : ℚ) else x.1.batchEquity }
        else
          { x.1 with
            ties := Function.update x.1.ties ((Batch.init k).playerIds j) (x.1.ties ((Batch.init k).playerIds j) + (((Batch.init k).winsByMask i / countOnes i : Nat) : ℚ)),
            batchEquity := if (Batch.init k).playerIds j = 0 then x.1.batchEquity + (((Batch.init k).winsByMask i / countOnes i : Nat) : ℚ) else x.1.batchEquity } : Merge),
          x.2 ||| (1 <<< (Batch.init k).playerIds j))
      else x) (m, a)).1 = m := by
    intro l
    induction l with
    | nil => intro a; rfl
    | cons j l ih =>
      intro a
      have h0 : (Batch.init k).winsByMask i = 0 := rfl
      rw [List.foldl_cons]
      by_cases hj : i &&& (1 <<< j) ≠ 0
      · rw [if_pos hj]
        by_cases hc : countOnes i = 1
        · rw [if_pos hc]
          simp only [h0, Function.update_eq_self, Nat.cast_zero, add_zero, ite_self] at ih ⊢
          exact ih _
        · rw [if_neg hc]
          simp only [h0, Nat.zero_div, Nat.cast_zero, add_zero, Function.update_eq_self, ite_self] at ih ⊢
          exact ih _
      · rw [if_neg hj]
        exact ih a
  exact this (List.range n) 0

theorem mergeMasks_blank (n k : Nat) (m : Merge) : mergeMasks n (Batch.init k) m = m := by
  unfold mergeMasks
  refine foldl_fixed _ _ _ fun i _ => ?_
  have h0 : (Batch.init k).winsByMask i = 0 := rfl
  simp only [h0, Nat.add_zero, Function.update_eq_self]
  exact mergePlayers_blank n i k m

/-- Merging an empty batch does not change the results. -/
def Settled (n : Nat) (r : Results) : Prop := updateResults id n true (Batch.init n) HandStats.init r = r

/-- After a batch has been merged, merging an empty one changes nothing. -/
theorem settled_update (n : Nat) (b : Batch) (hb : HandStats) (r : Results) : Settled n (updateResults id n true b hb r) := by
  unfold Settled updateResults
  simp only [mergeMasks_blank, if_true]
  have h0 : (Batch.init n).evalCount = 0 := rfl
  simp only [h0, Nat.add_zero]
  congr 1
  funext k
  by_cases hk : k < NUM_HANDS * n
  · simp only [if_pos hk, UnitResults.addAssign, HandStats.init, UnitResults.default, add_zero]
  · simp only [if_neg hk]

/-- `w` is a state of the calculation with a free token, `v` the state of the other one at the same time.  `p t` is the number of
steps that thread `t` lags behind in `v`: zero, or it waits before it reads the token, while in `w` it has found the token set
(`1`) and has then finished (`2`). -/
structure Lags (s : Sim) (p : Nat → Nat) (w v : World) : Prop where
  pos : w.shared.enumPos = v.shared.enumPos
  res : w.shared.results = v.shared.results
  off : v.shared.stopped = false
  live : ∀ t, p t = 0 → w.locals t = v.locals t
  last : ∀ t, p t = 1 → w.locals t = { v.locals t with pc := .final }
  gone : ∀ t, p t = 2 → (w.locals t).pc = .done
  le : ∀ t, p t ≤ 2
  held : ∀ t, 0 < p t → (v.locals t).pc = .check
  flushed : ∀ t, (v.locals t).pc = .check → (v.locals t).stats = Batch.init s.nPlayers ∧ (v.locals t).hands = HandStats.init ∧
    Settled s.nPlayers v.shared.results

theorem lags_init (s : Sim) (r0 : Results) (cancelled : Bool) : Lags s (fun _ => 0) (World.init s r0 cancelled) (World.init s r0 false) where
  pos := rfl
  res := rfl
  off := rfl
  live _ _ := rfl
  last _ h := by cases h
  gone _ h := by cases h
  le _ := Nat.zero_le _
  held _ h := absurd h (Nat.lt_irrefl 0)
  flushed _ h := by cases h

theorem Lags.store {p : Nat → Nat} {w v : World} (h : Lags s p w v) (x : Bool) :
    Lags s p { w with shared := { w.shared with stopped := x } } v :=
  { h with pos := h.pos, res := h.res, live := h.live, last := h.last, gone := h.gone }

/-- A thread that does not find the token set makes the same step in both. -/
theorem threadStep_free (l : Local) {g g' : Shared} (hp : g.enumPos = g'.enumPos) (hr : g.results = g'.results)
    (h : l.pc = .check → g.stopped = g'.stopped) :
    (threadStep s ds total size l g).1 = (threadStep s ds total size l g').1 ∧
    (threadStep s ds total size l g).2.enumPos = (threadStep s ds total size l g').2.enumPos ∧
    (threadStep s ds total size l g).2.results = (threadStep s ds total size l g').2.results := by
  unfold threadStep
  split
  · rw [hp]
    dsimp only
    split
    · exact ⟨rfl, hp, hr⟩
    · exact ⟨rfl, rfl, hr⟩
  · split
    · exact ⟨rfl, hp, hr⟩
    · dsimp only
      split <;> exact ⟨rfl, hp, hr⟩
  · refine ⟨rfl, hp, ?_⟩
    simp only [Shared.update, hr]
  · rename_i hc
    rw [h hc]
    split <;> exact ⟨rfl, hp, hr⟩
  · refine ⟨rfl, hp, ?_⟩
    simp only [Shared.update, hr]
  · exact ⟨rfl, hp, hr⟩
  · exact ⟨rfl, hp, hr⟩

/-- What a step leaves: the token, and results that are either unchanged or settled. -/
theorem threadStep_keeps (hx : s.calcExact = true) (l : Local) (g : Shared) :
    (threadStep s ds total size l g).2.stopped = g.stopped ∧
    ((threadStep s ds total size l g).2.results = g.results ∨ Settled s.nPlayers (threadStep s ds total size l g).2.results) ∧
    ((threadStep s ds total size l g).1.pc = .check → (threadStep s ds total size l g).1.stats = Batch.init s.nPlayers ∧
      (threadStep s ds total size l g).1.hands = HandStats.init ∧ Settled s.nPlayers (threadStep s ds total size l g).2.results) := by
  have hadv : ∀ l : Local, l.advance.pc ≠ .check := by
    intro l
    unfold Local.advance
    dsimp only
    split <;> decide
  unfold threadStep
  split
  · dsimp only
    split
    · exact ⟨rfl, .inl rfl, fun h => by cases h⟩
    · refine ⟨rfl, .inl rfl, fun h => ?_⟩
      dsimp only at h
      split at h <;> cases h
  · split
    · exact ⟨rfl, .inl rfl, fun h => by cases h⟩
    · dsimp only
      split
      · exact ⟨rfl, .inl rfl, fun h => by cases h⟩
      · exact ⟨rfl, .inl rfl, fun h => absurd h (hadv _)⟩
  · have : Settled s.nPlayers (g.update s total l).results := by
      unfold Shared.update
      rw [hx]
      exact settled_update ..
    exact ⟨rfl, .inr this, fun _ => ⟨rfl, rfl, this⟩⟩
  · split
    · exact ⟨rfl, .inl rfl, fun h => by cases h⟩
    · exact ⟨rfl, .inl rfl, fun h => absurd h (hadv _)⟩
  · have : Settled s.nPlayers (g.update s total l).results := by
      unfold Shared.update
      rw [hx]
      exact settled_update ..
    exact ⟨rfl, .inr this, fun h => by cases h⟩
  · rename_i h
    exact ⟨rfl, .inl rfl, fun h' => by rw [h] at h'; cases h'⟩
  · rename_i h
    exact ⟨rfl, .inl rfl, fun h' => by rw [h] at h'; cases h'⟩

/-- A step of a thread that lags behind, or that reads the token and finds it set: the other calculation waits. -/
theorem Lags.wait (hx : s.calcExact = true) {p : Nat → Nat} {w v : World} (h : Lags s p w v) {t : Nat}
    (hpc : (w.locals t).pc ≠ .done) (hc : 0 < p t ∨ ((w.locals t).pc = .check ∧ w.shared.stopped = true)) :
    Lags s (Function.update p t (p t + 1)) (w.next s ds total size t) v := by
  have hle : p t = 0 ∨ p t = 1 := by
    have h2 := h.le t
    have : p t ≠ 2 := fun e => hpc (h.gone t e)
    omega
  rcases hle with h0 | h1
  · obtain ⟨hck, hst⟩ := hc.resolve_left (by omega)
    have hl := h.live t h0
    have hstep : threadStep s ds total size (w.locals t) w.shared = ({ w.locals t with pc := .final }, w.shared) := by
      unfold threadStep
      rw [hck]
      simp only [hst, if_true]
    have hn : w.next s ds total size t = { locals := Function.update w.locals t { w.locals t with pc := .final }, shared := w.shared } := by
      unfold World.next
      rw [hstep]
    rw [hn, h0]
    refine ⟨h.pos, h.res, h.off, ?_, ?_, ?_, ?_, ?_, h.flushed⟩
    · intro u hu
      by_cases e : u = t
      · subst e; rw [Function.update_self] at hu; cases hu
      · rw [Function.update_of_ne e] at hu
        simp only [Function.update_of_ne e]
        exact h.live u hu
    · intro u hu
      by_cases e : u = t
      · subst e; simp only [Function.update_self, hl]
      · rw [Function.update_of_ne e] at hu
        simp only [Function.update_of_ne e]
        exact h.last u hu
    · intro u hu
      by_cases e : u = t
      · subst e; rw [Function.update_self] at hu; cases hu
      · rw [Function.update_of_ne e] at hu
        simp only [Function.update_of_ne e]
        exact h.gone u hu
    · intro u
      by_cases e : u = t
      · subst e; rw [Function.update_self]; omega
      · rw [Function.update_of_ne e]; exact h.le u
    · intro u hu
      by_cases e : u = t
      · subst e; rw [← hl]; exact hck
      · rw [Function.update_of_ne e] at hu; exact h.held u hu
  · have hl := h.last t h1
    have hh := h.held t (by omega)
    obtain ⟨f1, f2, f3⟩ := h.flushed t hh
    have hstep : threadStep s ds total size (w.locals t) w.shared =
        ({ w.locals t with pc := .done }, w.shared.update s total (w.locals t)) := by
      unfold threadStep
      rw [show (w.locals t).pc = .final by rw [hl]]
    have hn : w.next s ds total size t =
        { locals := Function.update w.locals t { w.locals t with pc := .done }, shared := w.shared.update s total (w.locals t) } := by
      unfold World.next
      rw [hstep]
    rw [hn, h1]
    refine ⟨h.pos, ?_, h.off, ?_, ?_, ?_, ?_, ?_, h.flushed⟩
    · simp only [Shared.update, hl, f1, f2, hx, h.res]
      exact f3
    · intro u hu
      by_cases e : u = t
      · subst e; rw [Function.update_self] at hu; cases hu
      · rw [Function.update_of_ne e] at hu
        simp only [Function.update_of_ne e]
        exact h.live u hu
    · intro u hu
      by_cases e : u = t
      · subst e; rw [Function.update_self] at hu; cases hu
      · rw [Function.update_of_ne e] at hu
        simp only [Function.update_of_ne e]
        exact h.last u hu
    · intro u hu
      by_cases e : u = t
      · subst e; simp only [Function.update_self]
      · rw [Function.update_of_ne e] at hu
        simp only [Function.update_of_ne e]
        exact h.gone u hu
    · intro u
      by_cases e : u = t
      · subst e; rw [Function.update_self]
      · rw [Function.update_of_ne e]; exact h.le u
    · intro u hu
      by_cases e : u = t
      · subst e; exact hh
      · rw [Function.update_of_ne e] at hu; exact h.held u hu

/-- Any other step happens in both. -/
theorem Lags.both (hx : s.calcExact = true) {p : Nat → Nat} {w v : World} (h : Lags s p w v) {t : Nat} (h0 : p t = 0)
    (hc : ¬ ((w.locals t).pc = .check ∧ w.shared.stopped = true)) :
    Lags s p (w.next s ds total size t) (v.next s ds total size t) := by
  have hl := h.live t h0
  have hsame := threadStep_free (s := s) (ds := ds) (total := total) (size := size) (w.locals t) h.pos h.res (fun e => by
    rw [h.off]
    by_contra hne
    exact hc ⟨e, by simpa using hne⟩)
  obtain ⟨e1, e2, e3⟩ := hsame
  rw [hl] at e1 e2 e3
  obtain ⟨k1, k2, k3⟩ := threadStep_keeps (ds := ds) (total := total) (size := size) hx (v.locals t) v.shared
  unfold World.next
  rw [hl]
  refine ⟨e2, e3, k1.trans h.off, ?_, ?_, ?_, h.le, ?_, ?_⟩
  · intro u hu
    by_cases e : u = t
    · subst e; simp only [Function.update_self]; exact e1
    · simp only [Function.update_of_ne e]; exact h.live u hu
  · intro u hu
    have e : u ≠ t := fun e => by subst e; omega
    simp only [Function.update_of_ne e]; exact h.last u hu
  · intro u hu
    have e : u ≠ t := fun e => by subst e; omega
    simp only [Function.update_of_ne e]; exact h.gone u hu
  · intro u hu
    have e : u ≠ t := fun e => by subst e; omega
    simp only [Function.update_of_ne e]; exact h.held u hu
  · intro u hu
    by_cases e : u = t
    · subst e; simp only [Function.update_self] at hu ⊢; exact k3 hu
    · simp only [Function.update_of_ne e] at hu ⊢
      obtain ⟨f1, f2, f3⟩ := h.flushed u hu
      refine ⟨f1, f2, ?_⟩
      rcases k2 with k2 | k2
      · rw [k2]; exact f3
      · exact k2

/-- Every state of the calculation with a free token has a counterpart. -/
theorem OwnerSteps.lags (hx : s.calcExact = true) {cancelled seen : Bool} {k : Nat} {w : World}
    (h : OwnerSteps s ds total size nT (World.init s r0 cancelled) seen k w) :
    ∃ p j v, StepsN s ds total size nT (World.init s r0 false) j v ∧ Lags s p w v ∧ (∀ t, nT ≤ t → p t = 0) ∧
      k = j + ∑ t ∈ range nT, p t ∧ (seen = false → ∀ t, p t = 0) := by
  induction h with
  | refl => exact ⟨fun _ => 0, 0, _, .refl, lags_init .., fun _ _ => rfl, by simp, fun _ _ => rfl⟩
  | @step _ _ _ _ w' _ hs hstep ih =>
    obtain ⟨p, j, v, hv, hl, hout, hk, hseen⟩ := ih
    cases hstep with
    | store _ x =>
      refine ⟨p, j, v, hv, hl.store x, hout, by omega, fun h => hseen ?_⟩
      simpa using h
    | thread _ t ht hpc =>
      by_cases hw : 0 < p t ∨ ((w'.locals t).pc = .check ∧ w'.shared.stopped = true)
      · refine ⟨_, j, v, hv, hl.wait hx hpc.1 hw, ?_, ?_, ?_⟩
        · intro u hu
          rw [Function.update_of_ne (by omega)]
          exact hout u hu
        · have hm : t ∈ range nT := mem_range.2 ht
          rw [Finset.sum_update_of_mem hm, hk, ← Finset.add_sum_erase _ _ hm, Finset.sdiff_singleton_eq_erase]
          omega
        · intro h
          rw [Bool.or_eq_false_iff] at h
          exfalso
          rcases hw with hw | ⟨h1, h2⟩
          · have := hseen h.1 t
            omega
          · rw [h1, h2] at h
            exact absurd h.2 (by decide)
      · have h0 : p t = 0 := by
          by_contra hne
          exact hw (.inl (Nat.pos_of_ne_zero hne))
        refine ⟨p, j + 1, _, .thread t ht (by rw [← hl.live t h0]; exact hpc) hv,
          hl.both hx h0 (fun h => hw (.inr h)), hout, by omega, fun h => hseen ?_⟩
        exact (Bool.or_eq_false_iff.1 h).1

/-- Threads that wait before they read the token can all finish once it is set, without changing the results. -/
theorem release_held (hx : s.calcExact = true) {v : World} (hset : v.shared.stopped = true)
    (hall : ∀ t < nT, (v.locals t).pc = .done ∨ (v.locals t).pc = .check)
    (hfl : ∀ t, (v.locals t).pc = .check → (v.locals t).stats = Batch.init s.nPlayers ∧ (v.locals t).hands = HandStats.init ∧
      Settled s.nPlayers v.shared.results) :
    ∃ u, Steps s ds total size nT v u ∧ (∀ t < nT, (u.locals t).pc = .done) ∧ u.shared.results = v.shared.results ∧
      u.shared.stopped = true := by
  have key : ∀ m ≤ nT, ∃ u, Steps s ds total size nT v u ∧ (∀ t < m, (u.locals t).pc = .done) ∧
      (∀ t, m ≤ t → u.locals t = v.locals t) ∧ u.shared.results = v.shared.results ∧ u.shared.stopped = true := by
    intro m
    induction m with
    | zero => intro _; exact ⟨v, .refl, fun t h => absurd h (Nat.not_lt_zero t), fun _ _ => rfl, rfl, hset⟩
    | succ m ih =>
      intro hm
      obtain ⟨u, h1, h2, h3, h4, h5⟩ := ih (by omega)
      have hum := h3 m le_rfl
      rcases hall m (by omega) with hd | hc
      · refine ⟨u, h1, fun t ht => ?_, fun t ht => h3 t (by omega), h4, h5⟩
        rcases Nat.lt_succ_iff_lt_or_eq.1 ht with ht | rfl
        · exact h2 t ht
        · rw [hum]; exact hd
      · obtain ⟨f1, f2, f3⟩ := hfl m hc
        have hs1 : Step s ds total size nT u (u.next s ds total size m) :=
          .thread u m (by omega) (by rw [hum, hc]; decide)
        have e1 : u.next s ds total size m =
            { locals := Function.update u.locals m { v.locals m with pc := .final }, shared := u.shared } := by
          unfold World.next threadStep
          rw [hum, hc]
          simp only [h5, if_true]
        rw [e1] at hs1
        have hs2 := Step.thread (s := s) (dividers := ds) (total := total) (size := size) (nThreads := nT)
          (⟨Function.update u.locals m { v.locals m with pc := .final }, u.shared⟩ : World) m (by omega)
          (by simp only [Function.update_self]; decide)
        simp only [Function.update_self, threadStep, Function.update_idem] at hs2
        refine ⟨_, .step (.step h1 hs1) hs2, ?_, ?_, ?_, h5⟩
        · intro t ht
          rcases Nat.lt_succ_iff_lt_or_eq.1 ht with ht | rfl
          · simp only [Function.update_of_ne (by omega : t ≠ m)]
            exact h2 t ht
          · simp only [Function.update_self]
        · intro t ht
          simp only [Function.update_of_ne (by omega : t ≠ m)]
          exact h3 t (by omega)
        · simp only [Shared.update, f1, f2, hx, h4]
          exact f3
  obtain ⟨u, h1, h2, _, h4, h5⟩ := key nT le_rfl
  exact ⟨u, h1, h2, h4, h5⟩

/-- What a finished calculation with a free token has counted, a calculation with a token that is at most set at the end has
counted as well; and it is set only if a thread found it set. -/
theorem OwnerSteps.finished (hx : s.calcExact = true) {cancelled seen : Bool} {k : Nat} {w : World}
    (h : OwnerSteps s ds total size nT (World.init s r0 cancelled) seen k w) (hdone : ∀ t < nT, (w.locals t).pc = .done) :
    ∃ u, Steps s ds total size nT (World.init s r0 false) u ∧ (∀ t < nT, (u.locals t).pc = .done) ∧
      u.shared.results = w.shared.results ∧ u.shared.stopped = seen := by
  obtain ⟨p, j, v, hv, hl, _, _, hseen⟩ := h.lags hx
  cases seen with
  | false =>
    exact ⟨v, hv.steps, fun t ht => by rw [← hl.live t (hseen rfl t)]; exact hdone t ht, hl.res.symm, hl.off⟩
  | true =>
    have hall : ∀ t < nT, (v.locals t).pc = .done ∨ (v.locals t).pc = .check := by
      intro t ht
      by_cases h0 : p t = 0
      · left; rw [← hl.live t h0]; exact hdone t ht
      · right; exact hl.held t (Nat.pos_of_ne_zero h0)
    obtain ⟨u, h1, h2, h3, h4⟩ := release_held (ds := ds) (total := total) (size := size) hx
      (v := { v with shared := { v.shared with stopped := true } }) rfl hall hl.flushed
    exact ⟨u, (Steps.step hv.steps (.cancel v)).trans h1, h2, h3.trans hl.res.symm, h4⟩

/-- Setting the token is a special case of storing a value. -/
theorem Steps.owner {w v : World} (h : Steps s ds total size nT w v) : ∃ seen k, OwnerSteps s ds total size nT w seen k v := by
  induction h with
  | refl => exact ⟨false, 0, .refl⟩
  | step _ hs ih =>
    obtain ⟨a, k, ih⟩ := ih
    cases hs with
    | thread t ht hpc => exact ⟨_, _, .step ih (.thread _ t ht hpc)⟩
    | cancel => exact ⟨_, _, .step ih (.store _ true)⟩

end Pokers
