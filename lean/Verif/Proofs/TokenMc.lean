import Verif.Proofs.Token
/-!
The random simulation with a caller who stores any values in the cancel token, followed by one in which the token is only set at the
end and the standard deviation never reaches the target.  The two count the same.
-/
namespace Pokers

variable {sqrt : ℚ → ℚ} {target : ℚ} {s : Sim} {nT : Nat} {r0 : Results}

/-- The results without the sums over the batches and the standard deviation. -/
def Results.counted (r : Results) : Results := { r with batchSum := 0, batchSum2 := 0, batchCount := 0, stdev := 0 }

theorem updateResults_counted (sqrt : ℚ → ℚ) (n : Nat) (ex : Bool) (b : Batch) (hb : HandStats) (r : Results) :
    (updateResults sqrt n ex b hb r).counted = updateResults id n true b hb r.counted := by
  cases ex <;> rfl

theorem finishResults_counted (s : Sim) (flag : Nat) (r : Results) :
    (finishResults s flag r).counted = finishResults s flag r.counted := by
  unfold finishResults
  dsimp only
  split <;> rfl

theorem stdev_root_zero (n : Nat) (b : Batch) (hb : HandStats) (r : Results) :
    (updateResults (fun _ => 0) n false b hb r).stdev = 0 := by
  show (0 : ℚ) / _ = 0
  exact zero_div _

/-- `w` is a state of the simulation with a free token, `v` the state of the other one at the same time; `p t` is the number of
steps that thread `t` lags behind in `v`. -/
structure McLags (s : Sim) (p : Nat → Nat) (w v : McWorld) : Prop where
  res : w.shared.results.counted = v.shared.results.counted
  off : v.shared.stopped = false
  live : ∀ t, p t = 0 → w.locals t = v.locals t
  last : ∀ t, p t = 1 → w.locals t = { v.locals t with pc := .final }
  gone : ∀ t, p t = 2 → (w.locals t).pc = .done
  le : ∀ t, p t ≤ 2
  held : ∀ t, 0 < p t → (v.locals t).pc = .check
  flushed : ∀ t, (v.locals t).pc = .check → (v.locals t).stats = Batch.init s.nPlayers ∧ (v.locals t).hands = HandStats.init ∧
    Settled s.nPlayers v.shared.results.counted

theorem mcLags_init (s : Sim) (r0 : Results) (cancelled : Bool) :
    McLags s (fun _ => 0) (McWorld.init s r0 cancelled) (McWorld.init s r0 false) where
  res := rfl
  off := rfl
  live _ _ := rfl
  last _ h := by cases h
  gone _ h := by cases h
  le _ := Nat.zero_le _
  held _ h := absurd h (Nat.lt_irrefl 0)
  flushed _ h := by cases h

/-- The effect of one merge on the counts and on the token of the simulation that never reaches its target. -/
theorem mcUpdate_free (hx : s.calcExact = false) (l : McLocal) (f : Bool) {g g' : McShared} (hr : g.results.counted = g'.results.counted)
    (h' : g'.stopped = false) :
    (g.update sqrt target s f l).results.counted = (g'.update (fun _ => 0) 0 s f l).results.counted ∧
    (g'.update (fun _ => 0) 0 s f l).stopped = false ∧
    Settled s.nPlayers (g'.update (fun _ => 0) 0 s f l).results.counted := by
  refine ⟨?_, ?_, ?_⟩
  · simp only [McShared.update, updateResults_counted, hr]
  · simp only [McShared.update, hx, stdev_root_zero, lt_self_iff_false, and_false, if_false, h']
  · simp only [McShared.update, updateResults_counted]
    exact settled_update ..

/-- A thread that does not find the token set makes the same step in both. -/
theorem mcStep_free (hx : s.calcExact = false) {l l1 : McLocal} {g g' g1 : McShared} {ds : Draws}
    (hr : g.results.counted = g'.results.counted) (h' : g'.stopped = false) (hc : ¬ (l.pc = .check ∧ g.stopped = true))
    (h : mcStep sqrt target s l g ds = .ok (l1, g1) []) :
    ∃ g2, mcStep (fun _ => 0) 0 s l g' ds = .ok (l1, g2) [] ∧ g1.results.counted = g2.results.counted ∧ g2.stopped = false ∧
      (g2.results.counted = g'.results.counted ∨ Settled s.nPlayers g2.results.counted) ∧
      (l1.pc = .check → (l.pc = .check ∧ l1 = l) ∨
        (l1.stats = Batch.init s.nPlayers ∧ l1.hands = HandStats.init ∧ Settled s.nPlayers g2.results.counted)) := by
  have same : ∀ {a : McLocal} {rest : Draws}, Out.ok (a, g) rest = Out.ok (l1, g1) [] → a.pc ≠ .check →
      ∃ g2, (Out.ok (a, g') rest : Out (McLocal × McShared)) = .ok (l1, g2) [] ∧ g1.results.counted = g2.results.counted ∧
        g2.stopped = false ∧ (g2.results.counted = g'.results.counted ∨ Settled s.nPlayers g2.results.counted) ∧
        (l1.pc = .check → (l.pc = .check ∧ l1 = l) ∨
          (l1.stats = Batch.init s.nPlayers ∧ l1.hands = HandStats.init ∧ Settled s.nPlayers g2.results.counted)) := by
    intro a rest he ha
    cases he
    exact ⟨g', rfl, hr, h', .inl rfl, fun h => absurd h ha⟩
  unfold mcStep at h ⊢
  split at h
  · split at h
    · refine same h ?_
      dsimp only; split <;> decide
    · cases h
    · exact same h (fun e => by cases e)
  · split at h
    · refine same h ?_
      dsimp only; split <;> decide
    · cases h
    · exact same h (fun e => by cases e)
  · cases h
    obtain ⟨u1, u2, u3⟩ := mcUpdate_free (sqrt := sqrt) (target := target) hx l false hr h'
    exact ⟨_, rfl, u1, u2, .inr u3, fun _ => .inr ⟨rfl, rfl, u3⟩⟩
  · rename_i hpc
    have hg : g.stopped = false := by
      by_contra hne
      exact hc ⟨hpc, by simpa using hne⟩
    rw [hg] at h
    rw [h']
    exact same h (fun e => by cases e)
  · split at h
    · refine same h ?_
      dsimp only; split <;> decide
    · cases h
    · exact same h (fun e => by cases e)
  · split at h
    · split at h
      · exact same h (fun e => by cases e)
      · split at h
        · exact same h (fun e => by cases e)
        · exact same h (fun e => by cases e)
    · cases h
    · exact same h (fun e => by cases e)
  · cases h
    obtain ⟨u1, u2, u3⟩ := mcUpdate_free (sqrt := sqrt) (target := target) hx l true hr h'
    exact ⟨_, rfl, u1, u2, .inr u3, fun h => by cases h⟩
  · rename_i hpc
    refine same h ?_
    rw [hpc]; decide
  · rename_i hpc
    refine same h ?_
    rw [hpc]; decide

/-- A step of a thread that lags behind, or that reads the token and finds it set: the other simulation waits. -/
theorem McLags.wait {p : Nat → Nat} {w v : McWorld} (h : McLags s p w v) {t : Nat} {ds : Draws} {l : McLocal} {g : McShared}
    (hst : mcStep sqrt target s (w.locals t) w.shared ds = .ok (l, g) [])
    (hpc : (w.locals t).pc ≠ .done) (hc : 0 < p t ∨ ((w.locals t).pc = .check ∧ w.shared.stopped = true)) :
    McLags s (Function.update p t (p t + 1)) { locals := Function.update w.locals t l, shared := g } v := by
  have hle : p t = 0 ∨ p t = 1 := by
    have h2 := h.le t
    have : p t ≠ 2 := fun e => hpc (h.gone t e)
    omega
  rcases hle with h0 | h1
  · obtain ⟨hck, hset⟩ := hc.resolve_left (by omega)
    have hl := h.live t h0
    unfold mcStep at hst
    rw [hck] at hst
    simp only [hset, if_true] at hst
    cases hst
    rw [h0]
    refine ⟨h.res, h.off, ?_, ?_, ?_, ?_, ?_, h.flushed⟩
    · intro u hu
      by_cases e : u = t
      · subst e; rw [Function.update_self] at hu; cases hu
      · rw [Function.update_of_ne e] at hu
        simp only [Function.update_of_ne e]
        exact h.live u hu
    · intro u hu
      by_cases e : u = t
      · subst e; simp only [Function.update_self, hl]
      · rw [Function.update_of_ne e] at hu
        simp only [Function.update_of_ne e]
        exact h.last u hu
    · intro u hu
      by_cases e : u = t
      · subst e; rw [Function.update_self] at hu; cases hu
      · rw [Function.update_of_ne e] at hu
        simp only [Function.update_of_ne e]
        exact h.gone u hu
    · intro u
      by_cases e : u = t
      · subst e; rw [Function.update_self]; omega
      · rw [Function.update_of_ne e]; exact h.le u
    · intro u hu
      by_cases e : u = t
      · subst e; rw [← hl]; exact hck
      · rw [Function.update_of_ne e] at hu; exact h.held u hu
  · have hl := h.last t h1
    have hh := h.held t (by omega)
    obtain ⟨f1, f2, f3⟩ := h.flushed t hh
    unfold mcStep at hst
    rw [show (w.locals t).pc = .final by rw [hl]] at hst
    cases hst
    rw [h1]
    refine ⟨?_, h.off, ?_, ?_, ?_, ?_, ?_, h.flushed⟩
    · simp only [McShared.update, updateResults_counted, hl, f1, f2, h.res]
      exact f3
    · intro u hu
      by_cases e : u = t
      · subst e; rw [Function.update_self] at hu; cases hu
      · rw [Function.update_of_ne e] at hu
        simp only [Function.update_of_ne e]
        exact h.live u hu
    · intro u hu
      by_cases e : u = t
      · subst e; rw [Function.update_self] at hu; cases hu
      · rw [Function.update_of_ne e] at hu
        simp only [Function.update_of_ne e]
        exact h.last u hu
    · intro u hu
      by_cases e : u = t
      · subst e; simp only [Function.update_self]
      · rw [Function.update_of_ne e] at hu
        simp only [Function.update_of_ne e]
        exact h.gone u hu
    · intro u
      by_cases e : u = t
      · subst e; rw [Function.update_self]
      · rw [Function.update_of_ne e]; exact h.le u
    · intro u hu
      by_cases e : u = t
      · subst e; exact hh
      · rw [Function.update_of_ne e] at hu; exact h.held u hu

/-- Any other step happens in both. -/
theorem McLags.both (hx : s.calcExact = false) {p : Nat → Nat} {w v : McWorld} (h : McLags s p w v) {t : Nat} {ds : Draws} {l : McLocal}
    {g : McShared} (hst : mcStep sqrt target s (w.locals t) w.shared ds = .ok (l, g) []) (h0 : p t = 0)
    (hc : ¬ ((w.locals t).pc = .check ∧ w.shared.stopped = true)) :
    ∃ g2, mcStep (fun _ => 0) 0 s (v.locals t) v.shared ds = .ok (l, g2) [] ∧
      McLags s p { locals := Function.update w.locals t l, shared := g } { locals := Function.update v.locals t l, shared := g2 } := by
  have hl := h.live t h0
  obtain ⟨g2, e1, e2, e3, e4, e5⟩ := mcStep_free hx h.res h.off hc hst
  rw [hl] at e1 e5
  refine ⟨g2, e1, e2, e3, ?_, ?_, ?_, h.le, ?_, ?_⟩
  · intro u hu
    by_cases e : u = t
    · subst e; simp only [Function.update_self]
    · simp only [Function.update_of_ne e]; exact h.live u hu
  · intro u hu
    have e : u ≠ t := fun e => by subst e; omega
    simp only [Function.update_of_ne e]; exact h.last u hu
  · intro u hu
    have e : u ≠ t := fun e => by subst e; omega
    simp only [Function.update_of_ne e]; exact h.gone u hu
  · intro u hu
    have e : u ≠ t := fun e => by subst e; omega
    simp only [Function.update_of_ne e]; exact h.held u hu
  · have keep : Settled s.nPlayers v.shared.results.counted → Settled s.nPlayers g2.results.counted := by
      intro f3
      rcases e4 with e4 | e4
      · rw [e4]; exact f3
      · exact e4
    intro u hu
    by_cases e : u = t
    · subst e
      simp only [Function.update_self] at hu ⊢
      rcases e5 hu with ⟨h1, h2⟩ | h3
      · obtain ⟨f1, f2, f3⟩ := h.flushed u h1
        rw [h2]
        exact ⟨f1, f2, keep f3⟩
      · exact h3
    · simp only [Function.update_of_ne e] at hu ⊢
      obtain ⟨f1, f2, f3⟩ := h.flushed u hu
      exact ⟨f1, f2, keep f3⟩

theorem McOwnerSteps.lags (hx : s.calcExact = false) {cancelled : Bool} {w : McWorld}
    (h : McOwnerSteps sqrt target s nT (McWorld.init s r0 cancelled) w) :
    ∃ p v, McSteps (fun _ => 0) 0 s nT (McWorld.init s r0 false) v ∧ McLags s p w v := by
  induction h with
  | refl => exact ⟨fun _ => 0, _, .refl, mcLags_init ..⟩
  | @step w' _ _ hstep ih =>
    obtain ⟨p, v, hv, hl⟩ := ih
    cases hstep with
    | store x =>
      exact ⟨p, v, hv, { hl with res := hl.res, live := hl.live, last := hl.last, gone := hl.gone }⟩
    | thread t ht hpc ds l g hst =>
      by_cases hw : 0 < p t ∨ ((w'.locals t).pc = .check ∧ w'.shared.stopped = true)
      · exact ⟨_, v, hv, hl.wait hst hpc.1 hw⟩
      · have h0 : p t = 0 := by
          by_contra hne
          exact hw (.inl (Nat.pos_of_ne_zero hne))
        obtain ⟨g2, e, hl2⟩ := hl.both hx hst h0 (fun h => hw (.inr h))
        exact ⟨p, _, .step hv (.thread v t ht (by rw [← hl.live t h0]; exact hpc) ds l g2 e), hl2⟩

theorem mcRelease_held {v : McWorld} (hset : v.shared.stopped = true)
    (hall : ∀ t < nT, (v.locals t).pc = .done ∨ (v.locals t).pc = .check)
    (hfl : ∀ t, (v.locals t).pc = .check → (v.locals t).stats = Batch.init s.nPlayers ∧ (v.locals t).hands = HandStats.init ∧
      Settled s.nPlayers v.shared.results.counted) :
    ∀ m ≤ nT, ∃ u, (∀ w, McSteps sqrt target s nT w v → McSteps sqrt target s nT w u) ∧ (∀ t < m, (u.locals t).pc = .done) ∧
      (∀ t, m ≤ t → u.locals t = v.locals t) ∧ u.shared.results.counted = v.shared.results.counted ∧ u.shared.stopped = true := by
  intro m
  induction m with
  | zero => intro _; exact ⟨v, fun _ h => h, fun t h => absurd h (Nat.not_lt_zero t), fun _ _ => rfl, rfl, hset⟩
  | succ m ih =>
    intro hm
    obtain ⟨u, h1, h2, h3, h4, h5⟩ := ih (by omega)
    have hum := h3 m le_rfl
    rcases hall m (by omega) with hd | hc
    · refine ⟨u, h1, fun t ht => ?_, fun t ht => h3 t (by omega), h4, h5⟩
      rcases Nat.lt_succ_iff_lt_or_eq.1 ht with ht | rfl
      · exact h2 t ht
      · rw [hum]; exact hd
    · obtain ⟨f1, f2, f3⟩ := hfl m hc
      have hs1 : McStep sqrt target s nT u ⟨Function.update u.locals m { v.locals m with pc := .final }, u.shared⟩ := by
        refine .thread u m (by omega) (by rw [hum, hc]; decide) [] _ _ ?_
        unfold mcStep
        rw [hum, hc]
        simp only [h5, if_true]
      have hs2 : McStep sqrt target s nT ⟨Function.update u.locals m { v.locals m with pc := .final }, u.shared⟩
          ⟨Function.update u.locals m { v.locals m with pc := .done },
            u.shared.update sqrt target s true { v.locals m with pc := .final }⟩ := by
        have := McStep.thread (sqrt := sqrt) (target := target) (s := s) (nThreads := nT)
          (⟨Function.update u.locals m { v.locals m with pc := .final }, u.shared⟩ : McWorld) m (by omega)
          (by simp only [Function.update_self]; decide) [] { v.locals m with pc := .done }
          (u.shared.update sqrt target s true { v.locals m with pc := .final })
          (by simp only [mcStep, Function.update_self])
        simpa only [Function.update_idem] using this
      refine ⟨_, fun w h => .step (.step (h1 w h) hs1) hs2, ?_, ?_, ?_, ?_⟩
      · intro t ht
        rcases Nat.lt_succ_iff_lt_or_eq.1 ht with ht | rfl
        · simp only [Function.update_of_ne (by omega : t ≠ m)]
          exact h2 t ht
        · simp only [Function.update_self]
      · intro t ht
        simp only [Function.update_of_ne (by omega : t ≠ m)]
        exact h3 t (by omega)
      · simp only [McShared.update, updateResults_counted, f1, f2, h4]
        exact f3
      · simp only [McShared.update, Bool.true_eq_false, false_and, if_false, h5]

/-- What a finished simulation with a free token has counted, a simulation that never reaches its target and whose token is set at
the end has counted as well. -/
theorem McOwnerSteps.finished (hx : s.calcExact = false) {cancelled : Bool} {w : McWorld}
    (h : McOwnerSteps sqrt target s nT (McWorld.init s r0 cancelled) w) (hdone : ∀ t < nT, (w.locals t).pc = .done) :
    ∃ u, McSteps (fun _ => 0) 0 s nT (McWorld.init s r0 false) u ∧ (∀ t < nT, (u.locals t).pc = .done) ∧
      u.shared.results.counted = w.shared.results.counted := by
  obtain ⟨p, v, hv, hl⟩ := h.lags hx
  have hall : ∀ t < nT, (v.locals t).pc = .done ∨ (v.locals t).pc = .check := by
    intro t ht
    by_cases h0 : p t = 0
    · left; rw [← hl.live t h0]; exact hdone t ht
    · right; exact hl.held t (Nat.pos_of_ne_zero h0)
  obtain ⟨u, h1, h2, _, h3, _⟩ := mcRelease_held (sqrt := fun _ => 0) (target := 0)
    (v := { v with shared := { v.shared with stopped := true } }) rfl hall hl.flushed nT le_rfl
  exact ⟨u, h1 _ (.step hv (.cancel v)), h2, h3.trans hl.res.symm⟩

/-- Setting the token is a special case of storing a value. -/
theorem McSteps.owner {w v : McWorld} (h : McSteps sqrt target s nT w v) : McOwnerSteps sqrt target s nT w v := by
  induction h with
  | refl => exact .refl
  | step _ hs ih =>
    cases hs with
    | thread t ht hpc ds l g hst => exact .step ih (.thread _ t ht hpc ds l g hst)
    | cancel => exact .step ih (.store _ true)

end Pokers
