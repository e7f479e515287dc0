import Verif.Model.LocksMc
import Mathlib.Logic.Function.Basic
/-!
# The lock of the random simulation: mutual exclusion, refinement of the atomic model, no deadlock
-/
namespace Pokers

variable {sqrt : ℚ → ℚ} {target : ℚ} {s : Sim} {nT : Nat}

/-- The sections in which the lock is held. -/
def McSection.holds : McSection → Bool
  | .outside => false
  | _ => true

/-- Invariant of the lock. -/
structure McLockInv (nT : Nat) (w : McLockWorld) : Prop where
  owner : ∀ t, w.owner = some t ↔ (w.sections t).holds = true
  update : ∀ t, (w.sections t).holds = true → (w.locals t).pc = .flush ∨ (w.locals t).pc = .final
  idle : ∀ t, nT ≤ t → w.sections t = .outside

/-- The data of the atomic model, which makes the whole update when the token is (or is not) set. -/
def McDataRel (sqrt : ℚ → ℚ) (target : ℚ) (s : Sim) (w : McLockWorld) (g : McShared) : Prop :=
  match w.owner with
  | none => g.results = w.shared.results ∧ g.sent = w.shared.sent
  | some t =>
    let r := updateResults sqrt s.nPlayers s.calcExact (w.locals t).stats (w.locals t).hands g.results
    match w.sections t with
    | .merged => w.shared.results = r ∧ g.sent = w.shared.sent
    | .sent => w.shared.results = r ∧ w.shared.sent = g.sent ++ [progressApprox r.stdev target]
    | _ => g.results = w.shared.results ∧ g.sent = w.shared.sent

/-- The state of the atomic model that corresponds to a state of the threads with the lock. -/
structure McLockRel (sqrt : ℚ → ℚ) (target : ℚ) (s : Sim) (w : McLockWorld) (v : McWorld) : Prop where
  stopped : v.shared.stopped = w.shared.stopped
  data : McDataRel sqrt target s w v.shared
  locals : ∀ t, v.locals t = if w.sections t = .leaving then (w.locals t).afterUpdate s.nPlayers else w.locals t

theorem McLockInv.init (s : Sim) (r : Results) (cancelled : Bool) (nT : Nat) : McLockInv nT (McLockWorld.init s r cancelled) := by
  constructor
  · intro t; simp [McLockWorld.init, McSection.holds]
  · intro t h; simp [McLockWorld.init, McSection.holds] at h
  · intro t _; rfl

/-- A thread that holds the lock goes on to a section in which it holds it. -/
theorem McLockInv.go {w w' : McLockWorld} (h : McLockInv nT w) {t : Nat} {σ : McSection} (hσ : σ.holds = true)
    (ht : (w.sections t).holds = true) (e1 : w'.sections = Function.update w.sections t σ) (e2 : w'.locals = w.locals)
    (e3 : w'.owner = w.owner) : McLockInv nT w' := by
  have hs : ∀ u, (w'.sections u).holds = (w.sections u).holds := by
    intro u
    by_cases e : u = t
    · subst e; rw [e1, Function.update_self, hσ, ht]
    · rw [e1, Function.update_of_ne e]
  refine ⟨fun u => by rw [e3, hs]; exact h.owner u, fun u hu => by rw [e2]; exact h.update u (by rw [← hs]; exact hu), fun u hu => ?_⟩
  have e : u ≠ t := fun e => by
    have := h.idle u hu; rw [e] at this; rw [this] at ht; cases ht
  rw [e1, Function.update_of_ne e]; exact h.idle u hu

theorem McLockInv.move {w v : McLockWorld} (h : McLockInv nT w) {t : Nat} (ht : t < nT) {ds : Draws}
    (hm : w.move sqrt target s t ds = some v) : McLockInv nT v := by
  unfold McLockWorld.move at hm
  simp only at hm
  split at hm
  · rename_i hsec
    have hno : ∀ u, w.owner = some u → u ≠ t := fun u ho e => by
      have := (h.owner u).1 ho; rw [e, hsec] at this; cases this
    split at hm
    · cases hm
    · split at hm
      · rename_i hpc
        split at hm
        · rename_i hn
          cases hm
          have hfree : ∀ u, (w.sections u).holds = false := by
            intro u
            cases hu : (w.sections u).holds with
            | false => rfl
            | true => have := (h.owner u).2 hu; rw [hn] at this; cases this
          refine ⟨fun u => ?_, fun u hu => ?_, fun u hu => ?_⟩
          · by_cases e : u = t
            · subst e; simp [McSection.holds]
            · simp only [Function.update_of_ne e, hfree u, Option.some_inj]
              exact ⟨fun e' => absurd e'.symm e, fun e' => by cases e'⟩
          · by_cases e : u = t
            · subst e; exact hpc
            · simp only [Function.update_of_ne e, hfree u] at hu; cases hu
          · have e : u ≠ t := by omega
            simp only [Function.update_of_ne e]; exact h.idle u hu
        · cases hm
      · split at hm
        · cases hm
          refine ⟨h.owner, fun u hu => ?_, h.idle⟩
          have e : u ≠ t := fun e => by rw [e] at hu; simp only [hsec] at hu; cases hu
          simp only [Function.update_of_ne e]
          exact h.update u hu
        · cases hm
  · rename_i hsec; cases hm; exact h.go (t := t) (σ := .merged) rfl (by rw [hsec]; rfl) rfl rfl rfl
  · rename_i hsec; cases hm; exact h.go (t := t) (σ := .sent) rfl (by rw [hsec]; rfl) rfl rfl rfl
  · rename_i hsec; cases hm; exact h.go (t := t) (σ := .leaving) rfl (by rw [hsec]; rfl) rfl rfl rfl
  · rename_i hsec
    cases hm
    have ho : w.owner = some t := (h.owner t).2 (by rw [hsec]; rfl)
    have hfree : ∀ u, u ≠ t → (w.sections u).holds = false := by
      intro u e
      cases hu : (w.sections u).holds with
      | false => rfl
      | true => have := (h.owner u).2 hu; rw [ho, Option.some_inj] at this; exact absurd this.symm e
    refine ⟨fun u => ?_, fun u hu => ?_, fun u hu => ?_⟩
    · by_cases e : u = t
      · subst e; simp [McSection.holds]
      · simp [Function.update_of_ne e, hfree u e]
    · by_cases e : u = t
      · subst e; simp [McSection.holds] at hu
      · simp only [Function.update_of_ne e, hfree u e] at hu; cases hu
    · have e : u ≠ t := by omega
      simp only [Function.update_of_ne e]; exact h.idle u hu

theorem McLockInv.steps {r : Results} {cancelled : Bool} {k : Nat} {w : McLockWorld}
    (h : McLockSteps sqrt target s nT (McLockWorld.init s r cancelled) k w) : McLockInv nT w := by
  induction h with
  | refl => exact McLockInv.init s r cancelled nT
  | thread t ht ds hm _ ih => exact ih.move ht hm
  | cancel _ ih => exact ⟨ih.owner, ih.update, ih.idle⟩

/-- The data are related as before if the owner of the lock and its section are the same. -/
theorem McDataRel.same {w w' : McLockWorld} {g g' : McShared} (h : McDataRel sqrt target s w g) (h1 : w'.owner = w.owner)
    (h2 : ∀ u, w.owner = some u → w'.sections u = w.sections u ∧ w'.locals u = w.locals u)
    (h3 : w'.shared.results = w.shared.results) (h4 : w'.shared.sent = w.shared.sent) (h5 : g'.results = g.results)
    (h6 : g'.sent = g.sent) : McDataRel sqrt target s w' g' := by
  unfold McDataRel at h ⊢
  rw [h1, h3, h4, h5, h6]
  cases ho : w.owner with
  | none => rw [ho] at h; exact h
  | some u =>
    rw [ho] at h
    obtain ⟨e1, e2⟩ := h2 u ho
    simp only [e1, e2]
    exact h

/-- Steps outside `update_results` use of the shared data only the token, and change nothing. -/
theorem mcStep_local {l : McLocal} (h1 : ¬ (l.pc = .flush ∨ l.pc = .final)) {g g' : McShared} (hs : g'.stopped = g.stopped) {ds rest : Draws}
    {l' : McLocal} {x : McShared} (h : mcStep sqrt target s l g ds = .ok (l', x) rest) :
    x = g ∧ mcStep sqrt target s l g' ds = .ok (l', g') rest := by
  unfold mcStep at h ⊢
  cases hp : l.pc <;> rw [hp] at h h1 <;> simp only at h ⊢
  case flush => exact absurd (Or.inl rfl) h1
  case final => exact absurd (Or.inr rfl) h1
  case check => cases h; rw [hs]; exact ⟨rfl, rfl⟩
  case done => cases h; exact ⟨rfl, rfl⟩
  case panicked => cases h; exact ⟨rfl, rfl⟩
  case start => split at h <;> cases h <;> exact ⟨rfl, rfl⟩
  case eval => split at h <;> cases h <;> exact ⟨rfl, rfl⟩
  case restart => split at h <;> cases h <;> exact ⟨rfl, rfl⟩
  case move =>
    split at h
    · split at h
      · cases h; exact ⟨rfl, rfl⟩
      · split at h <;> cases h <;> exact ⟨rfl, rfl⟩
    · cases h
    · cases h; exact ⟨rfl, rfl⟩

theorem mcStep_update {l : McLocal} (h : l.pc = .flush ∨ l.pc = .final) (g : McShared) (ds : Draws) :
    mcStep sqrt target s l g ds = .ok (l.afterUpdate s.nPlayers, g.update sqrt target s l.finished l) ds := by
  unfold mcStep McLocal.afterUpdate McLocal.finished
  rcases h with h | h <;> rw [h]

/-- How many steps a section is away from the next step of the atomic model, and then from leaving the section. -/
def McSection.rank : McSection → Nat
  | .outside => 4
  | .merging => 3
  | .merged => 2
  | .sent => 1
  | .leaving => 5

/-- A step with the lock is no step or a step of that thread in the atomic model. -/
theorem McLockRel.move {w w' : McLockWorld} {v : McWorld} (hI : McLockInv nT w) (h : McLockRel sqrt target s w v) {t : Nat} (ht : t < nT)
    {ds : Draws} (hm : w.move sqrt target s t ds = some w') :
    (McLockRel sqrt target s w' v ∧ (w'.sections t).rank + 1 = (w.sections t).rank) ∨
    ∃ l g, McStep sqrt target s nT v { locals := Function.update v.locals t l, shared := g } ∧
      McLockRel sqrt target s w' { locals := Function.update v.locals t l, shared := g } := by
  have hl := h.locals t
  have hd := h.data
  have hu := hI.update t
  have hsame : ∀ {σ : McSection}, σ ≠ .leaving → w.sections t ≠ .leaving → w'.sections = Function.update w.sections t σ →
      w'.locals = w.locals → ∀ u, v.locals u = if w'.sections u = .leaving then (w'.locals u).afterUpdate s.nPlayers else w'.locals u := by
    intro σ h1 h2 e1 e2 u
    by_cases e : u = t
    · subst e; rw [e1, e2, Function.update_self, if_neg h1]; rw [if_neg h2] at hl; exact hl
    · rw [e1, e2, Function.update_of_ne e]; exact h.locals u
  unfold McLockWorld.move at hm
  simp only at hm
  split at hm
  · rename_i hsec
    have hne : ∀ u, w.owner = some u → u ≠ t := fun u ho e => by
      have := (hI.owner u).1 ho; rw [e, hsec] at this; cases this
    rw [hsec, if_neg (by decide)] at hl
    split at hm
    · cases hm
    · rename_i hdone
      split at hm
      · split at hm
        · rename_i hn
          cases hm
          refine Or.inl ⟨⟨h.stopped, ?_, hsame (σ := .merging) (by decide) (by rw [hsec]; decide) rfl rfl⟩, ?_⟩
          · unfold McDataRel at hd ⊢
            rw [hn] at hd
            simpa using hd
          · simp [hsec, McSection.rank]
        · cases hm
      · rename_i hupd
        split at hm
        · rename_i l g hstep
          cases hm
          obtain ⟨rfl, h2⟩ := mcStep_local hupd h.stopped hstep
          refine Or.inr ⟨l, v.shared, ?_, h.stopped, ?_, ?_⟩
          · refine McStep.thread v t ht ?_ ds l v.shared (by rw [hl]; exact h2)
            rw [hl]; exact ⟨fun e => hdone (Or.inl e), fun e => hdone (Or.inr e)⟩
          · exact McDataRel.same hd rfl (fun u ho => ⟨rfl, Function.update_of_ne (hne u ho) _ _⟩) rfl rfl rfl rfl
          · intro u
            by_cases e : u = t
            · subst e; simp [hsec]
            · simp only [Function.update_of_ne e]; exact h.locals u
        · cases hm
  all_goals rename_i hsec
  all_goals have ho : w.owner = some t := (hI.owner t).2 (by rw [hsec]; rfl)
  all_goals have hpc := hu (by rw [hsec]; rfl)
  all_goals unfold McDataRel at hd
  all_goals rw [ho] at hd
  all_goals simp only [hsec] at hd
  · cases hm
    refine Or.inl ⟨⟨h.stopped, ?_, hsame (σ := .merged) (by decide) (by rw [hsec]; decide) rfl rfl⟩, by simp [hsec, McSection.rank]⟩
    unfold McDataRel
    simp only [ho, Function.update_self]
    exact ⟨by rw [hd.1], hd.2⟩
  · cases hm
    refine Or.inl ⟨⟨h.stopped, ?_, hsame (σ := .sent) (by decide) (by rw [hsec]; decide) rfl rfl⟩, by simp [hsec, McSection.rank]⟩
    unfold McDataRel
    simp only [ho, Function.update_self]
    exact ⟨hd.1, by rw [← hd.1, hd.2]⟩
  · cases hm
    rw [hsec, if_neg (by decide)] at hl
    refine Or.inr ⟨_, _, McStep.thread v t ht ?_ [] _ _ (mcStep_update (by rw [hl]; exact hpc) _ _), ?_⟩
    · rw [hl]; rcases hpc with hpc | hpc <;> rw [hpc] <;> exact ⟨by decide, by decide⟩
    · rw [hl]
      unfold McShared.update
      simp only
      refine ⟨?_, ?_, ?_⟩
      · simp only [h.stopped, hd.1]
      · unfold McDataRel
        simp only [ho, Function.update_self]
        exact ⟨hd.1.symm, hd.2.symm⟩
      · intro u
        by_cases e : u = t
        · subst e; simp
        · simp only [Function.update_of_ne e]; exact h.locals u
  · cases hm
    rw [hsec, if_pos rfl] at hl
    refine Or.inl ⟨⟨h.stopped, ?_, ?_⟩, by simp [hsec, McSection.rank]⟩
    · unfold McDataRel
      exact hd
    · intro u
      by_cases e : u = t
      · subst e; simp only [Function.update_self]; rw [if_neg (by decide)]; exact hl
      · simp only [Function.update_of_ne e]; exact h.locals u

theorem McLockRel.init (s : Sim) (r : Results) (cancelled : Bool) :
    McLockRel sqrt target s (McLockWorld.init s r cancelled) (McWorld.init s r cancelled) :=
  ⟨rfl, ⟨rfl, rfl⟩, fun _ => rfl⟩

/-- Every state reached with the lock corresponds to a state reached by the atomic model. -/
theorem McLockRel.steps {r : Results} {cancelled : Bool} {k : Nat} {w : McLockWorld}
    (h : McLockSteps sqrt target s nT (McLockWorld.init s r cancelled) k w) :
    ∃ v, McSteps sqrt target s nT (McWorld.init s r cancelled) v ∧ McLockRel sqrt target s w v := by
  induction h with
  | refl => exact ⟨_, .refl, McLockRel.init s r cancelled⟩
  | thread t ht ds hm hs ih =>
    obtain ⟨v, h1, h2⟩ := ih
    rcases h2.move (McLockInv.steps hs) ht hm with ⟨h3, _⟩ | ⟨l, g, h3, h4⟩
    · exact ⟨v, h1, h3⟩
    · exact ⟨_, .step h1 h3, h4⟩
  | cancel _ ih =>
    obtain ⟨v, h1, h2⟩ := ih
    exact ⟨_, .step h1 (.cancel v), rfl, McDataRel.same h2.data rfl (fun u ho => ⟨rfl, rfl⟩) rfl rfl rfl rfl, h2.locals⟩

/-- A state in which the lock is not held. -/
def McLockWorld.free (v : McWorld) : McLockWorld :=
  { locals := v.locals, sections := fun _ => .outside, shared := v.shared, owner := none }

theorem McLockSteps.trans {u v w : McLockWorld} {j k : Nat} (h1 : McLockSteps sqrt target s nT u j v)
    (h2 : McLockSteps sqrt target s nT v k w) : McLockSteps sqrt target s nT u (j + k) w := by
  induction h2 with
  | refl => exact h1
  | thread t ht ds hm _ ih => exact .thread t ht ds hm ih
  | cancel _ ih => exact .cancel ih

/-- The five steps of an update. -/
theorem McLockWorld.free_update (v : McWorld) {t : Nat} (ht : t < nT) (hp : (v.locals t).pc = .flush ∨ (v.locals t).pc = .final) :
    McLockSteps sqrt target s nT (McLockWorld.free v) 5 (McLockWorld.free ⟨Function.update v.locals t ((v.locals t).afterUpdate s.nPlayers),
      v.shared.update sqrt target s (v.locals t).finished (v.locals t)⟩) := by
  let r := updateResults sqrt s.nPlayers s.calcExact (v.locals t).stats (v.locals t).hands v.shared.results
  let W : McSection → McShared → McLockWorld := fun σ g =>
    { locals := v.locals, sections := Function.update (fun _ => McSection.outside) t σ, shared := g, owner := some t }
  have m1 : (McLockWorld.free v).move sqrt target s t [] = some (W .merging v.shared) := by
    unfold McLockWorld.move
    rcases hp with hp | hp <;> simp [McLockWorld.free, hp, W]
  have m2 : (W .merging v.shared).move sqrt target s t [] = some (W .merged { v.shared with results := r }) := by
    unfold McLockWorld.move; simp [W, r]
  have m3 : (W .merged { v.shared with results := r }).move sqrt target s t [] =
      some (W .sent { v.shared with results := r, sent := v.shared.sent ++ [progressApprox r.stdev target] }) := by
    unfold McLockWorld.move; simp [W]
  have m4 : (W .sent { v.shared with results := r, sent := v.shared.sent ++ [progressApprox r.stdev target] }).move sqrt target s t [] =
      some (W .leaving (v.shared.update sqrt target s (v.locals t).finished (v.locals t))) := by
    unfold McLockWorld.move McShared.update; simp [W, r]
  have m5 : (W .leaving (v.shared.update sqrt target s (v.locals t).finished (v.locals t))).move sqrt target s t [] =
      some (McLockWorld.free ⟨Function.update v.locals t ((v.locals t).afterUpdate s.nPlayers),
        v.shared.update sqrt target s (v.locals t).finished (v.locals t)⟩) := by
    unfold McLockWorld.move
    have : Function.update (Function.update (fun _ : Nat => McSection.outside) t .leaving) t .outside = fun _ => .outside := by
      rw [Function.update_idem]; exact Function.update_eq_self t (fun _ => McSection.outside)
    simp only [W, Function.update_self, McLockWorld.free, this]
  exact .thread t ht [] m5 (.thread t ht [] m4 (.thread t ht [] m3 (.thread t ht [] m2 (.thread t ht [] m1 .refl))))

/-- Every run of the atomic model is a run with the lock. -/
theorem McSteps.locks {w v : McWorld} (h : McSteps sqrt target s nT w v) :
    ∃ k, McLockSteps sqrt target s nT (McLockWorld.free w) k (McLockWorld.free v) := by
  induction h with
  | refl => exact ⟨0, .refl⟩
  | step _ hs ih =>
    obtain ⟨k, ih⟩ := ih
    cases hs with
    | thread t ht hpc ds l g hstep =>
      rename_i u _
      by_cases hp : (u.locals t).pc = .flush ∨ (u.locals t).pc = .final
      · rw [mcStep_update hp] at hstep
        cases hstep
        exact ⟨k + 5, ih.trans (McLockWorld.free_update u ht hp)⟩
      · refine ⟨k + 1, ih.trans (.thread t ht ds ?_ .refl)⟩
        have hd : ¬ ((u.locals t).pc = .done ∨ (u.locals t).pc = .panicked) := fun h => h.elim hpc.1 hpc.2
        unfold McLockWorld.move
        simp only [McLockWorld.free, if_neg hd, if_neg hp, hstep]
    | cancel => exact ⟨k, .cancel ih⟩

end Pokers
