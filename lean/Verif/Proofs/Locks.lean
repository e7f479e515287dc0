import Verif.Model.Locks
import Verif.Proofs.Progress
/-!
# The locks: mutual exclusion, refinement of the atomic model, no deadlock, termination
-/
namespace Pokers
open Spec
open Finset (range)

variable {s : Sim} {ds : List DividerU64} {total size nT : Nat}

/-- The sections in which `enum_pos` is held. -/
def Section.holdsPos : Section → Bool
  | .reserving => true
  | .reading => true
  | .computed _ => true
  | _ => false

/-- The sections in which `results` is held. -/
def Section.holdsRes : Section → Bool
  | .outside => false
  | .reserving => false
  | _ => true

/-- The sections after the progress has been computed. -/
def Section.past : Section → Bool
  | .computed _ => true
  | .sending _ => true
  | .leaving => true
  | _ => false

/-- Invariant of the locks. -/
structure LockInv (nT : Nat) (w : LockWorld) : Prop where
  pos : ∀ t, w.posOwner = some t ↔ (w.sections t).holdsPos = true
  res : ∀ t, w.resOwner = some t ↔ (w.sections t).holdsRes = true
  reserve : ∀ t, w.sections t = .reserving → (w.locals t).pc = .reserve
  update : ∀ t, (w.sections t).holdsRes = true → (w.locals t).pc = .flush ∨ (w.locals t).pc = .final
  idle : ∀ t, nT ≤ t → w.sections t = .outside

theorem LockInv.init (s : Sim) (r : Results) (cancelled : Bool) (nT : Nat) : LockInv nT (LockWorld.init s r cancelled) := by
  constructor
  · intro t; simp [LockWorld.init, Section.holdsPos]
  · intro t; simp [LockWorld.init, Section.holdsRes]
  · intro t h; simp [LockWorld.init] at h
  · intro t h; simp [LockWorld.init, Section.holdsRes] at h
  · intro t _; rfl

/-- How a lock changes when thread `t` goes to a section that does or does not hold it. -/
def OwnerChange (t : Nat) (old new : Option Nat) (before after : Bool) : Prop :=
  (new = old ∧ after = before) ∨ (old = none ∧ new = some t ∧ after = true) ∨ (old = some t ∧ new = none ∧ after = false)

theorem OwnerChange.owner {t : Nat} {old new : Option Nat} {f g : Nat → Bool} (h : OwnerChange t old new (f t) (g t))
    (hg : ∀ u, u ≠ t → g u = f u) (ho : ∀ u, old = some u ↔ f u = true) : ∀ u, new = some u ↔ g u = true := by
  intro u
  have hu := ho u
  have ht := ho t
  rcases h with ⟨h1, h2⟩ | ⟨h1, h2, h3⟩ | ⟨h1, h2, h3⟩
  · by_cases e : u = t
    · subst e; rw [h1, h2]; exact hu
    · rw [h1, hg u e]; exact hu
  · by_cases e : u = t
    · subst e; simp [h2, h3]
    · rw [hg u e, ← hu, h1, h2]
      constructor
      · intro h; exact absurd (Option.some.inj h).symm e
      · intro h; cases h
  · by_cases e : u = t
    · subst e; simp [h2, h3]
    · rw [hg u e, ← hu, h1, h2]
      constructor
      · intro h; cases h
      · intro h; exact absurd (Option.some.inj h).symm e

theorem LockInv.change {w v : LockWorld} (h : LockInv nT w) {t : Nat} (ht : t < nT) (σ : Section)
    (hsec : v.sections = Function.update w.sections t σ) (hloc : ∀ u, u ≠ t → v.locals u = w.locals u)
    (hpos : OwnerChange t w.posOwner v.posOwner (w.sections t).holdsPos σ.holdsPos)
    (hres : OwnerChange t w.resOwner v.resOwner (w.sections t).holdsRes σ.holdsRes)
    (h1 : σ = .reserving → (v.locals t).pc = .reserve)
    (h2 : σ.holdsRes = true → (v.locals t).pc = .flush ∨ (v.locals t).pc = .final) : LockInv nT v := by
  have ne : ∀ u, u ≠ t → v.sections u = w.sections u := fun u e => by rw [hsec, Function.update_of_ne e]
  have eq : v.sections t = σ := by rw [hsec, Function.update_self]
  constructor
  · refine OwnerChange.owner (t := t) (f := fun u => (w.sections u).holdsPos) (g := fun u => (v.sections u).holdsPos) ?_ ?_ h.pos
    · simp only [eq]; exact hpos
    · intro u e; simp only [ne u e]
  · refine OwnerChange.owner (t := t) (f := fun u => (w.sections u).holdsRes) (g := fun u => (v.sections u).holdsRes) ?_ ?_ h.res
    · simp only [eq]; exact hres
    · intro u e; simp only [ne u e]
  · intro u hu
    by_cases e : u = t
    · subst e; rw [eq] at hu; exact h1 hu
    · rw [ne u e] at hu; rw [hloc u e]; exact h.reserve u hu
  · intro u hu
    by_cases e : u = t
    · subst e; rw [eq] at hu; exact h2 hu
    · rw [ne u e] at hu; rw [hloc u e]; exact h.update u hu
  · intro u hu
    have e : u ≠ t := by omega
    rw [ne u e]; exact h.idle u hu

theorem LockInv.move {w v : LockWorld} (h : LockInv nT w) {t : Nat} (ht : t < nT) (hm : w.move s ds total size t = some v) :
    LockInv nT v := by
  have hp := h.pos t
  have hr := h.res t
  have hu := h.update t
  unfold LockWorld.move at hm
  simp only at hm
  split at hm
  · rename_i hsec
    split at hm
    · rename_i hpc
      split at hm
      · rename_i hn
        cases hm
        refine h.change ht .reserving rfl (fun _ _ => rfl) (Or.inr (Or.inl ⟨hn, rfl, rfl⟩)) (Or.inl ⟨rfl, by rw [hsec]; rfl⟩)
          (fun _ => hpc) (fun h => by cases h)
      · cases hm
    · cases hm
      refine h.change ht .outside (by simp [← hsec]) (fun u e => Function.update_of_ne e _ _) (Or.inl ⟨rfl, by rw [hsec]⟩)
        (Or.inl ⟨rfl, by rw [hsec]⟩) (fun h => by cases h) (fun h => by cases h)
    · cases hm
      refine h.change ht .outside (by simp [← hsec]) (fun u e => Function.update_of_ne e _ _) (Or.inl ⟨rfl, by rw [hsec]⟩)
        (Or.inl ⟨rfl, by rw [hsec]⟩) (fun h => by cases h) (fun h => by cases h)
    · rename_i hpc
      split at hm
      · rename_i hn
        cases hm
        refine h.change ht .merging rfl (fun _ _ => rfl) (Or.inl ⟨rfl, by rw [hsec]; rfl⟩) (Or.inr (Or.inl ⟨hn, rfl, rfl⟩))
          (fun h => by cases h) (fun _ => Or.inl hpc)
      · cases hm
    · rename_i hpc
      split at hm
      · rename_i hn
        cases hm
        refine h.change ht .merging rfl (fun _ _ => rfl) (Or.inl ⟨rfl, by rw [hsec]; rfl⟩) (Or.inr (Or.inl ⟨hn, rfl, rfl⟩))
          (fun h => by cases h) (fun _ => Or.inr hpc)
      · cases hm
    · cases hm
    · cases hm
  all_goals rename_i hsec
  all_goals rw [hsec] at hp hr hu
  · cases hm
    refine h.change ht .outside rfl (fun u e => Function.update_of_ne e _ _) (Or.inr (Or.inr ⟨hp.2 rfl, rfl, rfl⟩))
      (Or.inl ⟨rfl, by rw [hsec]; rfl⟩) (fun h => by cases h) (fun h => by cases h)
  · cases hm
    exact h.change ht .merged rfl (fun _ _ => rfl) (Or.inl ⟨rfl, by rw [hsec]; rfl⟩) (Or.inl ⟨rfl, by rw [hsec]; rfl⟩)
      (fun h => by cases h) (fun _ => hu rfl)
  · split at hm
    · rename_i hn
      cases hm
      exact h.change ht .reading rfl (fun _ _ => rfl) (Or.inr (Or.inl ⟨hn, rfl, rfl⟩)) (Or.inl ⟨rfl, by rw [hsec]; rfl⟩)
        (fun h => by cases h) (fun _ => hu rfl)
    · cases hm
  · cases hm
    exact h.change ht (.computed _) rfl (fun _ _ => rfl) (Or.inl ⟨rfl, by rw [hsec]; rfl⟩) (Or.inl ⟨rfl, by rw [hsec]; rfl⟩)
      (fun h => by cases h) (fun _ => hu rfl)
  · cases hm
    exact h.change ht (.sending _) rfl (fun _ _ => rfl) (Or.inr (Or.inr ⟨hp.2 rfl, rfl, rfl⟩)) (Or.inl ⟨rfl, by rw [hsec]; rfl⟩)
      (fun h => by cases h) (fun _ => hu rfl)
  · cases hm
    exact h.change ht .leaving rfl (fun _ _ => rfl) (Or.inl ⟨rfl, by rw [hsec]; rfl⟩) (Or.inl ⟨rfl, by rw [hsec]; rfl⟩)
      (fun h => by cases h) (fun _ => hu rfl)
  · cases hm
    exact h.change ht .outside rfl (fun u e => Function.update_of_ne e _ _) (Or.inl ⟨rfl, by rw [hsec]; rfl⟩)
      (Or.inr (Or.inr ⟨hr.2 rfl, rfl, rfl⟩)) (fun h => by cases h) (fun h => by cases h)

theorem LockInv.steps {r : Results} {cancelled : Bool} {k : Nat} {w : LockWorld}
    (h : LockSteps s ds total size nT (LockWorld.init s r cancelled) k w) : LockInv nT w := by
  induction h with
  | refl => exact LockInv.init s r cancelled nT
  | thread t ht hm _ ih => exact ih.move ht hm
  | cancel _ ih => exact ⟨ih.pos, ih.res, ih.reserve, ih.update, ih.idle⟩

/-- A thread that has not ended can move, or it waits for a lock whose owner can move. -/
theorem LockInv.progress {w : LockWorld} (h : LockInv nT w) {t : Nat} (ht : t < nT)
    (hpc : (w.locals t).pc ≠ .done ∧ (w.locals t).pc ≠ .panicked) :
    ∃ u < nT, ∃ v, w.move s ds total size u = some v := by
  have lt : ∀ u, w.sections u ≠ .outside → u < nT := fun u hu => by
    by_contra hn; exact hu (h.idle u (by omega))
  -- the owner of `enum_pos` can move
  have hP : ∀ u, w.posOwner = some u → ∃ v, w.move s ds total size u = some v := by
    intro u hu
    have := (h.pos u).1 hu
    unfold LockWorld.move
    cases hs : w.sections u <;> simp_all [Section.holdsPos]
  have hPos : w.posOwner ≠ none → ∃ u < nT, ∃ v, w.move s ds total size u = some v := by
    intro hne
    obtain ⟨u, hu⟩ := Option.ne_none_iff_exists'.1 hne
    refine ⟨u, lt u fun hs => ?_, hP u hu⟩
    have := (h.pos u).1 hu
    rw [hs] at this; cases this
  -- the owner of `results` can move or waits for `enum_pos`
  have hRes : w.resOwner ≠ none → ∃ u < nT, ∃ v, w.move s ds total size u = some v := by
    intro hne
    obtain ⟨u, hu⟩ := Option.ne_none_iff_exists'.1 hne
    have hr := (h.res u).1 hu
    have hlt : u < nT := lt u fun hs => by rw [hs] at hr; cases hr
    by_cases hp : w.posOwner = none
    · refine ⟨u, hlt, ?_⟩
      unfold LockWorld.move
      cases hs : w.sections u <;> simp_all [Section.holdsRes]
    · exact hPos hp
  cases hs : w.sections t with
  | outside =>
    cases hpc' : (w.locals t).pc with
    | reserve =>
      by_cases hp : w.posOwner = none
      · refine ⟨t, ht, ?_⟩
        unfold LockWorld.move
        simp [hs, hpc', hp]
      · exact hPos hp
    | work => exact ⟨t, ht, by unfold LockWorld.move; simp [hs, hpc']⟩
    | check => exact ⟨t, ht, by unfold LockWorld.move; simp [hs, hpc']⟩
    | flush =>
      by_cases hp : w.resOwner = none
      · refine ⟨t, ht, ?_⟩
        unfold LockWorld.move
        simp [hs, hpc', hp]
      · exact hRes hp
    | final =>
      by_cases hp : w.resOwner = none
      · refine ⟨t, ht, ?_⟩
        unfold LockWorld.move
        simp [hs, hpc', hp]
      · exact hRes hp
    | done => exact absurd hpc' hpc.1
    | panicked => exact absurd hpc' hpc.2
  | reserving => exact ⟨t, ht, hP t ((h.pos t).2 (by rw [hs]; rfl))⟩
  | merging => exact hRes (by rw [(h.res t).2 (by rw [hs]; rfl)]; simp)
  | merged => exact hRes (by rw [(h.res t).2 (by rw [hs]; rfl)]; simp)
  | reading => exact hRes (by rw [(h.res t).2 (by rw [hs]; rfl)]; simp)
  | computed p => exact hRes (by rw [(h.res t).2 (by rw [hs]; rfl)]; simp)
  | sending p => exact hRes (by rw [(h.res t).2 (by rw [hs]; rfl)]; simp)
  | leaving => exact hRes (by rw [(h.res t).2 (by rw [hs]; rfl)]; simp)

/-- The shared data seen by the atomic model, which makes the whole update at the moment the progress is computed. -/
def DataRel (s : Sim) (w : LockWorld) (g : Shared) : Prop :=
  match w.resOwner with
  | none => g.results = w.shared.results ∧ g.sent = w.shared.sent
  | some t =>
    match w.sections t with
    | .merged => w.shared.results = updateResults id s.nPlayers s.calcExact (w.locals t).stats (w.locals t).hands g.results ∧
        g.sent = w.shared.sent
    | .reading => w.shared.results = updateResults id s.nPlayers s.calcExact (w.locals t).stats (w.locals t).hands g.results ∧
        g.sent = w.shared.sent
    | .computed p => g.results = w.shared.results ∧ g.sent = w.shared.sent ++ [p]
    | .sending p => g.results = w.shared.results ∧ g.sent = w.shared.sent ++ [p]
    | _ => g.results = w.shared.results ∧ g.sent = w.shared.sent

/-- The state of the atomic model that corresponds to a state of the threads with locks. -/
structure LockRel (s : Sim) (w : LockWorld) (v : World) : Prop where
  pos : v.shared.enumPos = w.shared.enumPos
  stopped : v.shared.stopped = w.shared.stopped
  data : DataRel s w v.shared
  locals : ∀ t, v.locals t = if (w.sections t).past then (w.locals t).afterUpdate s.nPlayers else w.locals t

theorem threadStep_local {l : Local} (h : l.pc = .work ∨ l.pc = .check) {g g' : Shared} (hs : g'.stopped = g.stopped) :
    (threadStep s ds total size l g).2 = g ∧ (threadStep s ds total size l g').1 = (threadStep s ds total size l g).1 := by
  unfold threadStep
  rcases h with h | h <;> rw [h] <;> simp only
  · cases s.processPos ds l.pos (l.stats, l.hands) with
    | none => exact ⟨rfl, rfl⟩
    | some st => simp only; split <;> exact ⟨rfl, rfl⟩
  · rw [hs]; split <;> exact ⟨rfl, rfl⟩

theorem threadStep_reserve {l : Local} (h : l.pc = .reserve) {g g' : Shared} (he : g'.enumPos = g.enumPos) :
    (threadStep s ds total size l g').1 = (threadStep s ds total size l g).1 ∧
    (threadStep s ds total size l g').2 = { g' with enumPos := (threadStep s ds total size l g).2.enumPos } := by
  unfold threadStep
  rw [h]
  simp only
  rw [he]
  cases fits 64 (g.enumPos + size) with
  | none => exact ⟨rfl, by rw [← he]⟩
  | some e => exact ⟨rfl, rfl⟩

theorem threadStep_update {l : Local} (h : l.pc = .flush ∨ l.pc = .final) (g : Shared) :
    threadStep s ds total size l g = (l.afterUpdate s.nPlayers, g.update s total l) := by
  unfold threadStep Local.afterUpdate
  rcases h with h | h <;> rw [h]

/-- The data are related as before if the owner of `results` and its section are the same. -/
theorem DataRel.same {w w' : LockWorld} {g : Shared} (h : DataRel s w g) (h1 : w'.resOwner = w.resOwner)
    (h2 : ∀ u, w.resOwner = some u → w'.sections u = w.sections u ∧ w'.locals u = w.locals u)
    (h3 : w'.shared.results = w.shared.results) (h4 : w'.shared.sent = w.shared.sent) (g' : Shared) (h5 : g'.results = g.results)
    (h6 : g'.sent = g.sent) : DataRel s w' g' := by
  unfold DataRel at h ⊢
  rw [h1, h3, h4, h5, h6]
  cases ho : w.resOwner with
  | none => rw [ho] at h; exact h
  | some u =>
    rw [ho] at h
    obtain ⟨e1, e2⟩ := h2 u ho
    simp only [e1, e2]
    exact h

/-- The number of steps a section is away from the next step of the atomic model, and then from leaving the section. -/
def Section.rank : Section → Nat
  | .outside => 4
  | .reserving => 3
  | .merging => 3
  | .merged => 2
  | .reading => 1
  | .computed _ => 7
  | .sending _ => 6
  | .leaving => 5

/-- What a step with locks does to the corresponding state of the atomic model: nothing, or the step of that thread. -/
def Matches (s : Sim) (ds : List DividerU64) (total size t : Nat) (w w' : LockWorld) (v v' : World) : Prop :=
  (v' = v ∧ (w'.sections t).rank + 1 = (w.sections t).rank) ∨
  (((v.locals t).pc ≠ .done ∧ (v.locals t).pc ≠ .panicked) ∧ v' = v.next s ds total size t ∧
    (w'.sections t).rank ≤ (w.sections t).rank + 6)

theorem past_holdsRes {σ : Section} (h : σ.past = true) : σ.holdsRes = true := by
  cases σ <;> first | rfl | cases h

theorem LockRel.move {w w' : LockWorld} {v : World} (hI : LockInv nT w) (h : LockRel s w v) {t : Nat} (ht : t < nT)
    (hm : w.move s ds total size t = some w') : ∃ v', Matches s ds total size t w w' v v' ∧ LockRel s w' v' := by
  have hr := hI.res t
  have hu := hI.update t
  have hl := h.locals t
  -- locals and sections of the other threads do not change
  have hloc : ∀ {σ : Section} {l l' : Local}, w'.sections = Function.update w.sections t σ → w'.locals = Function.update w.locals t l →
      (l' = if σ.past then l.afterUpdate s.nPlayers else l) → ∀ u, Function.update v.locals t l' u =
        if (w'.sections u).past then (w'.locals u).afterUpdate s.nPlayers else w'.locals u := by
    intro σ l l' e1 e2 e3 u
    by_cases e : u = t
    · subst e; rw [e1, e2, Function.update_self, Function.update_self, Function.update_self]; exact e3
    · rw [e1, e2, Function.update_of_ne e, Function.update_of_ne e, Function.update_of_ne e]; exact h.locals u
  have hsame : ∀ {σ : Section}, σ.past = (w.sections t).past → w'.sections = Function.update w.sections t σ →
      w'.locals = w.locals → ∀ u, v.locals u = if (w'.sections u).past then (w'.locals u).afterUpdate s.nPlayers else w'.locals u := by
    intro σ hp e1 e2 u
    by_cases e : u = t
    · subst e; rw [e1, e2, Function.update_self, hp]; exact h.locals u
    · rw [e1, e2, Function.update_of_ne e]; exact h.locals u
  unfold LockWorld.move at hm
  simp only at hm
  split at hm
  · rename_i hsec
    rw [hsec] at hr hl
    have hne : ∀ u, w.resOwner = some u → u ≠ t := fun u ho e => by
      have := hr.1 (e ▸ ho); cases this
    have hl' : v.locals t = w.locals t := hl
    have same : ∀ u, w.resOwner = some u → ∀ σ : Section, Function.update w.sections t σ u = w.sections u := fun u ho σ =>
      Function.update_of_ne (hne u ho) _ _
    have hthread : (w.locals t).pc = .work ∨ (w.locals t).pc = .check →
        some { w with locals := Function.update w.locals t (threadStep s ds total size (w.locals t) w.shared).1, shared := (threadStep s ds total size (w.locals t) w.shared).2 } = some w' →
        ∃ v', Matches s ds total size t w w' v v' ∧ LockRel s w' v' := by
      intro hpc hm
      have hm := Option.some.inj hm
      obtain ⟨e1, _⟩ := threadStep_local (s := s) (ds := ds) (total := total) (size := size) hpc (g := w.shared) (g' := w.shared) rfl
      obtain ⟨f1, _⟩ := threadStep_local (s := s) (ds := ds) (total := total) (size := size) hpc (g := v.shared) (g' := v.shared) rfl
      obtain ⟨_, f2⟩ := threadStep_local (s := s) (ds := ds) (total := total) (size := size) hpc (g := w.shared) (g' := v.shared) h.stopped
      have hpc' : (v.locals t).pc ≠ .done ∧ (v.locals t).pc ≠ .panicked := by
        rw [hl']; rcases hpc with hpc | hpc <;> rw [hpc] <;> exact ⟨by decide, by decide⟩
      rw [e1] at hm
      subst hm
      refine ⟨_, Or.inr ⟨hpc', rfl, by simp⟩, ?_⟩
      unfold World.next
      rw [hl', f1, f2]
      exact ⟨h.pos, h.stopped, by
        refine DataRel.same h.data ?_ (fun u ho => ⟨?_, ?_⟩) ?_ ?_ _ ?_ ?_
        all_goals first | rfl | exact Function.update_of_ne (hne u ho) _ _,
        hloc (σ := .outside) (by simp [← hsec]) rfl rfl⟩
    have hkeep : ∀ {σ : Section}, σ.past = false → w'.sections = Function.update w.sections t σ → w'.locals = w.locals → ∀ u, v.locals u =
        if (w'.sections u).past then (w'.locals u).afterUpdate s.nPlayers else w'.locals u := by
      intro σ hp e1 e2 u
      by_cases e : u = t
      · subst e; rw [e1, e2, Function.update_self, hp]; exact hl'
      · rw [e1, e2, Function.update_of_ne e]; exact h.locals u
    split at hm
    · split at hm
      · cases hm
        exact ⟨v, Or.inl ⟨rfl, by simp [hsec, Section.rank]⟩, h.pos, h.stopped, by
          refine DataRel.same h.data ?_ (fun u ho => ⟨?_, ?_⟩) ?_ ?_ _ ?_ ?_
          all_goals first | rfl | exact same u ho _,
          hkeep (σ := .reserving) rfl rfl rfl⟩
      · cases hm
    · rename_i hpc; exact hthread (Or.inl hpc) hm
    · rename_i hpc; exact hthread (Or.inr hpc) hm
    · split at hm
      · rename_i hn
        cases hm
        refine ⟨v, Or.inl ⟨rfl, by simp [hsec, Section.rank]⟩, h.pos, h.stopped, ?_, hkeep (σ := .merging) rfl rfl rfl⟩
        have hd := h.data
        unfold DataRel at hd ⊢
        rw [hn] at hd
        simpa using hd
      · cases hm
    · split at hm
      · rename_i hn
        cases hm
        refine ⟨v, Or.inl ⟨rfl, by simp [hsec, Section.rank]⟩, h.pos, h.stopped, ?_, hkeep (σ := .merging) rfl rfl rfl⟩
        have hd := h.data
        unfold DataRel at hd ⊢
        rw [hn] at hd
        simpa using hd
      · cases hm
    · cases hm
    · cases hm
  all_goals rename_i hsec
  all_goals rw [hsec] at hr hu hl
  · -- reserving
    have hl' : v.locals t = w.locals t := hl
    have hpc := hI.reserve t hsec
    have hne : ∀ u, w.resOwner = some u → u ≠ t := fun u ho e => by
      have := hr.1 (e ▸ ho); cases this
    obtain ⟨e1, e2⟩ := threadStep_reserve (s := s) (ds := ds) (total := total) (size := size) hpc (g := w.shared) (g' := v.shared) h.pos
    obtain ⟨_, e3⟩ := threadStep_reserve (s := s) (ds := ds) (total := total) (size := size) hpc (g := w.shared) (g' := w.shared) rfl
    have hpc' : (v.locals t).pc ≠ .done ∧ (v.locals t).pc ≠ .panicked := by
      rw [hl', hpc]; exact ⟨by decide, by decide⟩
    rw [e3] at hm
    cases hm
    refine ⟨_, Or.inr ⟨hpc', rfl, by simp [hsec, Section.rank]⟩, ?_⟩
    unfold World.next
    rw [hl', e1, e2]
    exact ⟨rfl, h.stopped, by
      refine DataRel.same h.data ?_ (fun u ho => ⟨?_, ?_⟩) ?_ ?_ _ ?_ ?_
      all_goals first | rfl | exact Function.update_of_ne (hne u ho) _ _,
      hloc (σ := .outside) rfl rfl rfl⟩
  all_goals have ho : w.resOwner = some t := hr.2 rfl
  all_goals have hd := h.data
  all_goals unfold DataRel at hd
  all_goals rw [ho] at hd
  all_goals simp only [hsec] at hd
  · -- merging
    cases hm
    refine ⟨v, Or.inl ⟨rfl, by simp [hsec, Section.rank]⟩, h.pos, h.stopped, ?_, hsame (σ := .merged) (by rw [hsec]; rfl) rfl rfl⟩
    unfold DataRel
    simp only [ho, Function.update_self]
    exact ⟨by rw [hd.1], hd.2⟩
  · -- merged
    split at hm
    · cases hm
      refine ⟨v, Or.inl ⟨rfl, by simp [hsec, Section.rank]⟩, h.pos, h.stopped, ?_, hsame (σ := .reading) (by rw [hsec]; rfl) rfl rfl⟩
      unfold DataRel
      simp only [ho, Function.update_self]
      exact hd
    · cases hm
  · -- reading
    have hl' : v.locals t = w.locals t := hl
    have hpc := hu rfl
    have hpc' : (v.locals t).pc ≠ .done ∧ (v.locals t).pc ≠ .panicked := by
      rw [hl']; rcases hpc with hpc | hpc <;> rw [hpc] <;> exact ⟨by decide, by decide⟩
    cases hm
    refine ⟨_, Or.inr ⟨hpc', rfl, by simp [hsec, Section.rank]⟩, ?_⟩
    unfold World.next
    rw [hl', threadStep_update hpc]
    refine ⟨h.pos, h.stopped, ?_, hloc (σ := .computed _) rfl (Function.update_eq_self t w.locals).symm rfl⟩
    unfold DataRel Shared.update
    simp only [ho, Function.update_self]
    refine ⟨hd.1.symm, ?_⟩
    rw [hd.2, h.pos]
  · -- computed
    cases hm
    refine ⟨v, Or.inl ⟨rfl, by simp [hsec, Section.rank]⟩, h.pos, h.stopped, ?_, hsame (σ := .sending _) (by rw [hsec]; rfl) rfl rfl⟩
    unfold DataRel
    simp only [ho, Function.update_self]
    exact hd
  · -- sending
    cases hm
    refine ⟨v, Or.inl ⟨rfl, by simp [hsec, Section.rank]⟩, h.pos, h.stopped, ?_, hsame (σ := .leaving) (by rw [hsec]; rfl) rfl rfl⟩
    unfold DataRel
    simp only [ho, Function.update_self]
    exact hd
  · -- leaving
    cases hm
    refine ⟨v, Or.inl ⟨rfl, by simp [hsec, Section.rank]⟩, h.pos, h.stopped, ?_, ?_⟩
    · unfold DataRel
      exact hd
    · intro u
      by_cases e : u = t
      · subst e
        simp only [Function.update_self]
        exact hl
      · simp only [Function.update_of_ne e]; exact h.locals u

theorem LockRel.init (s : Sim) (r : Results) (cancelled : Bool) : LockRel s (LockWorld.init s r cancelled) (World.init s r cancelled) :=
  ⟨rfl, rfl, ⟨rfl, rfl⟩, fun _ => rfl⟩

theorem move_sections {w w' : LockWorld} {t : Nat} (hm : w.move s ds total size t = some w') {u : Nat} (h : u ≠ t) :
    w'.sections u = w.sections u := by
  unfold LockWorld.move at hm
  simp only at hm
  split at hm
  · split at hm
    all_goals (try split at hm)
    all_goals (first | cases hm; done | (cases hm; first | rfl | exact Function.update_of_ne h _ _))
  all_goals (try split at hm)
  all_goals (first | cases hm; done | (cases hm; first | rfl | exact Function.update_of_ne h _ _))

/-- Every state reached with locks corresponds to a state reached by the atomic model, and the number of steps is bounded by that of
the atomic model. -/
theorem LockRel.steps {r : Results} {cancelled : Bool} {k : Nat} {w : LockWorld}
    (h : LockSteps s ds total size nT (LockWorld.init s r cancelled) k w) :
    ∃ v j, StepsN s ds total size nT (World.init s r cancelled) j v ∧ LockRel s w v ∧
      k + ∑ t ∈ range nT, (w.sections t).rank ≤ 7 * j + 4 * nT := by
  induction h with
  | refl =>
    refine ⟨_, 0, .refl, LockRel.init s r cancelled, ?_⟩
    have : ∀ t, ((LockWorld.init s r cancelled).sections t).rank = 4 := fun _ => rfl
    simp only [this, Finset.sum_const, Finset.card_range, smul_eq_mul]
    omega
  | thread t ht hm hs ih =>
    rename_i u w'
    obtain ⟨v, j, h1, h2, h3⟩ := ih
    obtain ⟨v', h4, h5⟩ := h2.move (LockInv.steps hs) ht hm
    have e : ∑ x ∈ (range nT).erase t, (w'.sections x).rank = ∑ x ∈ (range nT).erase t, (u.sections x).rank :=
      Finset.sum_congr rfl fun x hx => by rw [move_sections hm (Finset.ne_of_mem_erase hx)]
    have e1 := Finset.add_sum_erase (range nT) (fun x => (w'.sections x).rank) (Finset.mem_range.2 ht)
    have e2 := Finset.add_sum_erase (range nT) (fun x => (u.sections x).rank) (Finset.mem_range.2 ht)
    rcases h4 with ⟨rfl, h6⟩ | ⟨h6, rfl, h7⟩
    · exact ⟨v', j, h1, h5, by omega⟩
    · exact ⟨_, j + 1, .thread t ht h6 h1, h5, by omega⟩
  | cancel _ ih =>
    obtain ⟨v, j, h1, h2, h3⟩ := ih
    refine ⟨_, j, .cancel h1, ⟨h2.pos, rfl, ?_, h2.locals⟩, h3⟩
    refine DataRel.same h2.data ?_ (fun u ho => ⟨?_, ?_⟩) ?_ ?_ _ ?_ ?_ <;> rfl

/-- A state in which no lock is held. -/
def LockWorld.free (v : World) : LockWorld :=
  { locals := v.locals, sections := fun _ => .outside, shared := v.shared, posOwner := none, resOwner := none }

theorem LockSteps.trans {u v w : LockWorld} {j k : Nat} (h1 : LockSteps s ds total size nT u j v)
    (h2 : LockSteps s ds total size nT v k w) : LockSteps s ds total size nT u (j + k) w := by
  induction h2 with
  | refl => exact h1
  | thread t ht hm _ ih => exact .thread t ht hm ih
  | cancel _ ih => exact .cancel ih

/-- The seven steps of an update. -/
theorem free_update (v : World) {t : Nat} (ht : t < nT) (hp : (v.locals t).pc = .flush ∨ (v.locals t).pc = .final) :
    LockSteps s ds total size nT (LockWorld.free v) 7 (LockWorld.free (v.next s ds total size t)) := by
  let g' : Shared := { v.shared with
    results := updateResults id s.nPlayers s.calcExact (v.locals t).stats (v.locals t).hands v.shared.results }
  let W : Section → Option Nat → Shared → LockWorld := fun σ o g =>
    { locals := v.locals, sections := Function.update (fun _ => Section.outside) t σ, shared := g, posOwner := o, resOwner := some t }
  let P := progressExact v.shared.enumPos total
  have m1 : (LockWorld.free v).move s ds total size t = some (W .merging none v.shared) := by
    unfold LockWorld.move
    rcases hp with hp | hp <;> simp [LockWorld.free, hp, W]
  have m2 : (W .merging none v.shared).move s ds total size t = some (W .merged none g') := by
    unfold LockWorld.move; simp [W, g']
  have m3 : (W .merged none g').move s ds total size t = some (W .reading (some t) g') := by
    unfold LockWorld.move; simp [W]
  have m4 : (W .reading (some t) g').move s ds total size t = some (W (.computed P) (some t) g') := by
    unfold LockWorld.move; simp [W, g', P]
  have m5 : (W (.computed P) (some t) g').move s ds total size t = some (W (.sending P) none g') := by
    unfold LockWorld.move; simp [W]
  have m6 : (W (.sending P) none g').move s ds total size t = some (W .leaving none (v.shared.update s total (v.locals t))) := by
    unfold LockWorld.move; simp [W, g', P, Shared.update]
  have m7 : (W .leaving none (v.shared.update s total (v.locals t))).move s ds total size t =
      some (LockWorld.free (v.next s ds total size t)) := by
    unfold LockWorld.move
    have : Function.update (Function.update (fun _ : Nat => Section.outside) t .leaving) t .outside = fun _ => .outside := by
      rw [Function.update_idem]; exact Function.update_eq_self t (fun _ => Section.outside)
    simp only [W, Function.update_self, LockWorld.free, World.next, threadStep_update hp, this]
  exact .thread t ht m7 (.thread t ht m6 (.thread t ht m5 (.thread t ht m4 (.thread t ht m3 (.thread t ht m2 (.thread t ht m1 .refl))))))

theorem free_next (v : World) {t : Nat} (ht : t < nT) (hpc : (v.locals t).pc ≠ .done ∧ (v.locals t).pc ≠ .panicked) :
    ∃ k, LockSteps s ds total size nT (LockWorld.free v) k (LockWorld.free (v.next s ds total size t)) := by
  cases hp : (v.locals t).pc with
  | work =>
    refine ⟨1, .thread t ht ?_ .refl⟩
    unfold LockWorld.move
    simp [LockWorld.free, hp, World.next]
  | check =>
    refine ⟨1, .thread t ht ?_ .refl⟩
    unfold LockWorld.move
    simp [LockWorld.free, hp, World.next]
  | reserve =>
    refine ⟨2, .thread t ht ?_ (.thread (v := { LockWorld.free v with
      sections := Function.update (fun _ => Section.outside) t .reserving, posOwner := some t }) t ht ?_ .refl)⟩
    · unfold LockWorld.move
      simp [LockWorld.free, World.next]
    · unfold LockWorld.move
      simp [LockWorld.free, hp]
  | done => exact absurd hp hpc.1
  | panicked => exact absurd hp hpc.2
  | flush => exact ⟨7, free_update v ht (Or.inl hp)⟩
  | final => exact ⟨7, free_update v ht (Or.inr hp)⟩

/-- Every run of the atomic model is a run with locks. -/
theorem Steps.locks {w v : World} (h : Steps s ds total size nT w v) :
    ∃ k, LockSteps s ds total size nT (LockWorld.free w) k (LockWorld.free v) := by
  induction h with
  | refl => exact ⟨0, .refl⟩
  | step _ hs ih =>
    obtain ⟨k, ih⟩ := ih
    cases hs with
    | thread t ht hpc =>
      obtain ⟨j, hj⟩ := free_next _ ht hpc
      exact ⟨k + j, ih.trans hj⟩
    | cancel => exact ⟨k, .cancel ih⟩

end Pokers
