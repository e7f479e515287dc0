import Verif.Model.Poison
import Mathlib.Algebra.BigOperators.Group.Finset.Basic
import Mathlib.Algebra.BigOperators.Group.Finset.Piecewise
import Mathlib.Data.List.Infix
/-!
# Locks that can be poisoned: invariants, refinement of the atomic steps, no deadlock
-/
namespace Pokers
open Finset (range)

variable {L R : Type} {P : Program L R} {nT : Nat}

/-- What the descriptions of the threads have in common. -/
structure Program.Lawful (P : Program L R) : Prop where
  fail : ∀ l, P.kind (P.fail l) = .panicked
  stop : P.usesPos = true → ∀ l r, P.stop l r = false
  progress : P.usesPos = false → ∀ r a b, P.progress r a = P.progress r b

/-- The places in which `enum_pos` is held. -/
def Place.holdsPos : Place → Bool
  | .reserving => true
  | .reading => true
  | .computed _ => true
  | _ => false

/-- The places in which `results` is held. -/
def Place.holdsRes : Place → Bool
  | .outside => false
  | .reserving => false
  | _ => true

/-- The places after the moment at which the atomic model makes the update. -/
def Place.past (uses : Bool) : Place → Bool
  | .computed _ => true
  | .sending _ => uses
  | .sent => uses
  | .leaving => true
  | _ => false

/-- Invariant of the locks. -/
structure PoolInv (P : Program L R) (nT : Nat) (w : LockPool L R) : Prop where
  pos : ∀ t, w.posOwner = some t ↔ (w.places t).holdsPos = true
  res : ∀ t, w.resOwner = some t ↔ (w.places t).holdsRes = true
  reserve : ∀ t, w.places t = .reserving → P.kind (w.locals t) = .reserve
  update : ∀ t, (w.places t).holdsRes = true → P.kind (w.locals t) = .update
  uses : ∀ t, (w.places t = .reading ∨ ∃ p, w.places t = .computed p) → P.usesPos = true
  idle : ∀ t, nT ≤ t → w.places t = .outside
  posBad : w.posBad = true → ∃ t < nT, P.kind (w.locals t) = .panicked
  resBad : w.resBad = true → w.resOwner = none ∧ ∃ t < nT, P.kind (w.locals t) = .panicked

theorem PoolInv.init (l : L) (r : R) (cancelled : Bool) : PoolInv P nT (Call.init l r cancelled).threads := by
  constructor <;> simp [Call.init, Place.holdsPos, Place.holdsRes]

/-- How a lock changes when thread `t` goes to a place that does or does not hold it. -/
def OwnerMove (t : Nat) (old new : Option Nat) (before after : Bool) : Prop :=
  (new = old ∧ after = before) ∨ (old = none ∧ new = some t ∧ after = true) ∨ (old = some t ∧ new = none ∧ after = false)

theorem OwnerMove.owner {t : Nat} {old new : Option Nat} {f g : Nat → Bool} (h : OwnerMove t old new (f t) (g t))
    (hg : ∀ u, u ≠ t → g u = f u) (hf : ∀ u, old = some u ↔ f u = true) : ∀ u, new = some u ↔ g u = true := by
  intro u
  have hu := hf u
  rcases h with ⟨h1, h2⟩ | ⟨h1, h2, h3⟩ | ⟨h1, h2, h3⟩
  · by_cases e : u = t
    · subst e; rw [h1, h2]; exact hu
    · rw [h1, hg u e]; exact hu
  · by_cases e : u = t
    · subst e; simp [h2, h3]
    · rw [hg u e, ← hu, h1, h2]
      constructor
      · intro h; exact absurd (Option.some.inj h).symm e
      · intro h; cases h
  · by_cases e : u = t
    · subst e; simp [h2, h3]
    · rw [hg u e, ← hu, h1, h2]
      constructor
      · intro h; cases h
      · intro h; exact absurd (Option.some.inj h).symm e

theorem PoolInv.change {w v : LockPool L R} (h : PoolInv P nT w) {t : Nat} (ht : t < nT) (σ : Place)
    (hsec : v.places = Function.update w.places t σ) (hloc : ∀ u, u ≠ t → v.locals u = w.locals u)
    (hpos : OwnerMove t w.posOwner v.posOwner (w.places t).holdsPos σ.holdsPos)
    (hres : OwnerMove t w.resOwner v.resOwner (w.places t).holdsRes σ.holdsRes)
    (h1 : σ = .reserving → P.kind (v.locals t) = .reserve)
    (h2 : σ.holdsRes = true → P.kind (v.locals t) = .update)
    (h3 : (σ = .reading ∨ ∃ p, σ = .computed p) → P.usesPos = true)
    (hpan : P.kind (w.locals t) = .panicked → P.kind (v.locals t) = .panicked)
    (h4 : v.posBad = true → w.posBad = true ∨ P.kind (v.locals t) = .panicked)
    (h5 : v.resBad = true → v.resOwner = none ∧ (w.resBad = true ∨ P.kind (v.locals t) = .panicked)) : PoolInv P nT v := by
  have ne : ∀ u, u ≠ t → v.places u = w.places u := fun u e => by rw [hsec, Function.update_of_ne e]
  have eq : v.places t = σ := by rw [hsec, Function.update_self]
  have keep : (∃ u < nT, P.kind (w.locals u) = .panicked) → ∃ u < nT, P.kind (v.locals u) = .panicked := by
    rintro ⟨u, hu, hk⟩
    by_cases e : u = t
    · subst e; exact ⟨u, hu, hpan hk⟩
    · exact ⟨u, hu, by rw [hloc u e]; exact hk⟩
  constructor
  · refine OwnerMove.owner (t := t) (f := fun u => (w.places u).holdsPos) (g := fun u => (v.places u).holdsPos) ?_ ?_ h.pos
    · simp only [eq]; exact hpos
    · intro u e; simp only [ne u e]
  · refine OwnerMove.owner (t := t) (f := fun u => (w.places u).holdsRes) (g := fun u => (v.places u).holdsRes) ?_ ?_ h.res
    · simp only [eq]; exact hres
    · intro u e; simp only [ne u e]
  · intro u hu
    by_cases e : u = t
    · subst e; rw [eq] at hu; exact h1 hu
    · rw [ne u e] at hu; rw [hloc u e]; exact h.reserve u hu
  · intro u hu
    by_cases e : u = t
    · subst e; rw [eq] at hu; exact h2 hu
    · rw [ne u e] at hu; rw [hloc u e]; exact h.update u hu
  · intro u hu
    by_cases e : u = t
    · subst e; rw [eq] at hu; exact h3 hu
    · rw [ne u e] at hu; exact h.uses u hu
  · intro u hu
    have e : u ≠ t := by omega
    rw [ne u e]; exact h.idle u hu
  · intro hb
    rcases h4 hb with hb | hb
    · exact keep (h.posBad hb)
    · exact ⟨t, ht, hb⟩
  · intro hb
    obtain ⟨ho, hb⟩ := h5 hb
    refine ⟨ho, ?_⟩
    rcases hb with hb | hb
    · exact keep (h.resBad hb).2
    · exact ⟨t, ht, hb⟩

theorem PoolInv.panic (hP : P.Lawful) {w : LockPool L R} (h : PoolInv P nT w) {t : Nat} (ht : t < nT) : PoolInv P nT (w.panic P t) := by
  have hp := h.pos t
  have hr := h.res t
  have hk : P.kind ((w.panic P t).locals t) = .panicked := by simp only [LockPool.panic, Function.update_self]; exact hP.fail _
  refine h.change ht .outside rfl (fun u e => Function.update_of_ne e _ _) ?_ ?_ (fun h => by cases h) (fun h => by cases h)
    (fun h => by rcases h with h | ⟨_, h⟩ <;> cases h) (fun _ => hk) (fun _ => Or.inr hk) (fun hb => ⟨?_, Or.inr hk⟩)
  · by_cases ho : w.posOwner = some t
    · exact Or.inr (Or.inr ⟨ho, by simp [LockPool.panic, ho], rfl⟩)
    · refine Or.inl ⟨by simp [LockPool.panic, ho], ?_⟩
      cases e : (w.places t).holdsPos
      · rfl
      · exact absurd (hp.2 e) ho
  · by_cases ho : w.resOwner = some t
    · exact Or.inr (Or.inr ⟨ho, by simp [LockPool.panic, ho], rfl⟩)
    · refine Or.inl ⟨by simp [LockPool.panic, ho], ?_⟩
      cases e : (w.places t).holdsRes
      · rfl
      · exact absurd (hr.2 e) ho
  · simp only [LockPool.panic, Bool.or_eq_true, beq_iff_eq] at hb ⊢
    split
    · rfl
    · rename_i hne
      rcases hb with hb | hb
      · exact (h.resBad hb).1
      · exact absurd hb hne

theorem PoolInv.move (hP : P.Lawful) {w v : LockPool L R} (h : PoolInv P nT w) {t : Nat} (ht : t < nT) (hm : P.Move t w v) :
    PoolInv P nT v := by
  have hp := h.pos t
  have hr := h.res t
  have hu := h.update t
  have hpb := h.posBad
  have hrb : w.resBad = true → w.resOwner = none := fun e => (h.resBad e).1
  have no : ∀ {k : Kind}, P.kind (w.locals t) = k → k ≠ .panicked → P.kind (w.locals t) = .panicked → False := fun e n e' =>
    n (e ▸ e')
  have held : ∀ {σ : Place}, w.places t = σ → σ.holdsRes = true → w.resOwner = some t := fun e e' => hr.2 (by rw [e]; exact e')
  have bad : ∀ {σ : Place}, w.places t = σ → σ.holdsRes = true → w.resBad = true → False := fun e e' hb => by
    have := hrb hb; rw [held e e'] at this; cases this
  cases hm with
  | compute hpl hk hc =>
    refine h.change ht .outside (by simp [← hpl]) (fun u e => Function.update_of_ne e _ _) (Or.inl ⟨rfl, by rw [hpl]⟩)
      (Or.inl ⟨rfl, by rw [hpl]⟩) (fun h => by cases h) (fun h => by cases h)
      (fun h => by rcases h with h | ⟨_, h⟩ <;> cases h) (fun e => (no hk (by decide) e).elim) Or.inl (fun hb => ⟨hrb hb, Or.inl hb⟩)
  | lockPos hpl hk ho hb =>
    exact h.change ht .reserving rfl (fun _ _ => rfl) (Or.inr (Or.inl ⟨ho, rfl, rfl⟩)) (Or.inl ⟨rfl, by rw [hpl]; rfl⟩)
      (fun _ => hk) (fun h => by cases h) (fun h => by rcases h with h | ⟨_, h⟩ <;> cases h) id Or.inl (fun hb => ⟨hrb hb, Or.inl hb⟩)
  | badPos => exact h.panic hP ht
  | reserve hpl hx =>
    rw [hpl] at hp
    refine h.change ht .outside rfl (fun u e => Function.update_of_ne e _ _) (Or.inr (Or.inr ⟨hp.2 rfl, rfl, rfl⟩))
      (Or.inl ⟨rfl, by rw [hpl]; rfl⟩) (fun h => by cases h) (fun h => by cases h)
      (fun h => by rcases h with h | ⟨_, h⟩ <;> cases h) (fun e => (no (h.reserve t hpl) (by decide) e).elim) Or.inl
      (fun hb => ⟨hrb hb, Or.inl hb⟩)
  | reserveFail => exact h.panic hP ht
  | lockRes hpl hk ho hb =>
    exact h.change ht .merging rfl (fun _ _ => rfl) (Or.inl ⟨rfl, by rw [hpl]; rfl⟩) (Or.inr (Or.inl ⟨ho, rfl, rfl⟩))
      (fun h => by cases h) (fun _ => hk) (fun h => by rcases h with h | ⟨_, h⟩ <;> cases h) id Or.inl
      (fun hb' => by rw [show w.resBad = true from hb'] at hb; cases hb)
  | badRes => exact h.panic hP ht
  | merge hpl hm =>
    exact h.change ht .merged rfl (fun _ _ => rfl) (Or.inl ⟨rfl, by rw [hpl]; rfl⟩) (Or.inl ⟨rfl, by rw [hpl]; rfl⟩)
      (fun h => by cases h) (fun _ => hu (by rw [hpl]; rfl)) (fun h => by rcases h with h | ⟨_, h⟩ <;> cases h) id Or.inl
      (fun hb => ⟨hrb hb, Or.inl hb⟩)
  | mergeFail r hpl hm =>
    exact PoolInv.panic (w := { w with results := r }) hP ⟨h.pos, h.res, h.reserve, h.update, h.uses, h.idle, h.posBad, h.resBad⟩ ht
  | lockRead hpl hus ho hb =>
    exact h.change ht .reading rfl (fun _ _ => rfl) (Or.inr (Or.inl ⟨ho, rfl, rfl⟩)) (Or.inl ⟨rfl, by rw [hpl]; rfl⟩)
      (fun h => by cases h) (fun _ => hu (by rw [hpl]; rfl)) (fun _ => hus) id Or.inl (fun hb => ⟨hrb hb, Or.inl hb⟩)
  | badRead => exact h.panic hP ht
  | read hpl =>
    exact h.change ht (.computed _) rfl (fun _ _ => rfl) (Or.inl ⟨rfl, by rw [hpl]; rfl⟩) (Or.inl ⟨rfl, by rw [hpl]; rfl⟩)
      (fun h => by cases h) (fun _ => hu (by rw [hpl]; rfl)) (fun _ => h.uses t (Or.inl hpl)) id Or.inl (fun hb => ⟨hrb hb, Or.inl hb⟩)
  | unlockRead hpl =>
    rw [hpl] at hp
    exact h.change ht (.sending _) rfl (fun _ _ => rfl) (Or.inr (Or.inr ⟨hp.2 rfl, rfl, rfl⟩)) (Or.inl ⟨rfl, by rw [hpl]; rfl⟩)
      (fun h => by cases h) (fun _ => hu (by rw [hpl]; rfl)) (fun h => by rcases h with h | ⟨_, h⟩ <;> cases h) id Or.inl
      (fun hb => ⟨hrb hb, Or.inl hb⟩)
  | progress hpl hus =>
    exact h.change ht (.sending _) rfl (fun _ _ => rfl) (Or.inl ⟨rfl, by rw [hpl]; rfl⟩) (Or.inl ⟨rfl, by rw [hpl]; rfl⟩)
      (fun h => by cases h) (fun _ => hu (by rw [hpl]; rfl)) (fun h => by rcases h with h | ⟨_, h⟩ <;> cases h) id Or.inl
      (fun hb => ⟨hrb hb, Or.inl hb⟩)
  | send hpl =>
    exact h.change ht .sent rfl (fun _ _ => rfl) (Or.inl ⟨rfl, by rw [hpl]; rfl⟩) (Or.inl ⟨rfl, by rw [hpl]; rfl⟩)
      (fun h => by cases h) (fun _ => hu (by rw [hpl]; rfl)) (fun h => by rcases h with h | ⟨_, h⟩ <;> cases h) id Or.inl
      (fun hb => ⟨hrb hb, Or.inl hb⟩)
  | stop hpl =>
    exact h.change ht .leaving rfl (fun _ _ => rfl) (Or.inl ⟨rfl, by rw [hpl]; rfl⟩) (Or.inl ⟨rfl, by rw [hpl]; rfl⟩)
      (fun h => by cases h) (fun _ => hu (by rw [hpl]; rfl)) (fun h => by rcases h with h | ⟨_, h⟩ <;> cases h) id Or.inl
      (fun hb => ⟨hrb hb, Or.inl hb⟩)
  | leave hpl =>
    exact h.change ht .outside rfl (fun u e => Function.update_of_ne e _ _) (Or.inl ⟨rfl, by rw [hpl]; rfl⟩)
      (Or.inr (Or.inr ⟨held hpl rfl, rfl, rfl⟩)) (fun h => by cases h) (fun h => by cases h)
      (fun h => by rcases h with h | ⟨_, h⟩ <;> cases h) (fun e => (no (hu (by rw [hpl]; rfl)) (by decide) e).elim) Or.inl
      (fun hb => (bad hpl rfl hb).elim)

/-- Steps of the threads alone, with cancellations. -/
inductive LockRun (P : Program L R) (nT : Nat) (w : LockPool L R) : Nat → LockPool L R → Prop
  | refl : LockRun P nT w 0 w
  | step {k : Nat} {u v : LockPool L R} {t : Nat} : LockRun P nT w k u → t < nT → P.Move t u v → LockRun P nT w (k + 1) v
  | cancel {k : Nat} {u : LockPool L R} : LockRun P nT w k u → LockRun P nT w k { u with stopped := true }

theorem PoolInv.run (hP : P.Lawful) {w v : LockPool L R} {k : Nat} (hw : PoolInv P nT w) (h : LockRun P nT w k v) : PoolInv P nT v := by
  induction h with
  | refl => exact hw
  | step _ ht hm ih => exact ih.move hP ht hm
  | cancel _ ih => exact ⟨ih.pos, ih.res, ih.reserve, ih.update, ih.uses, ih.idle, ih.posBad, ih.resBad⟩

/-- A thread that has not ended can move, or it waits for a lock whose owner can move, unless a computation has no outcome. -/
theorem PoolInv.progress {w : LockPool L R} (h : PoolInv P nT w)
    (live : ∀ u < nT, w.places u = .outside → P.kind (w.locals u) = .compute → ∃ l, P.compute (w.locals u) w.stopped l) {t : Nat}
    (ht : t < nT) (hk : P.kind (w.locals t) ≠ .done ∧ P.kind (w.locals t) ≠ .panicked) : ∃ u < nT, ∃ v, P.Move u w v := by
  have lt : ∀ u, w.places u ≠ .outside → u < nT := fun u hu => by
    by_contra hn; exact hu (h.idle u (by omega))
  have hPos : w.posOwner ≠ none → ∃ u < nT, ∃ v, P.Move u w v := by
    intro hne
    obtain ⟨u, hu⟩ := Option.ne_none_iff_exists'.1 hne
    have hh := (h.pos u).1 hu
    refine ⟨u, lt u (fun hs => by rw [hs] at hh; cases hh), ?_⟩
    cases hs : w.places u with
    | reserving =>
      cases hx : P.reserve (w.locals u) w.pos with
      | none => exact ⟨_, .reserveFail hs hx⟩
      | some x => exact ⟨_, .reserve hs hx⟩
    | reading => exact ⟨_, .read hs⟩
    | computed p => exact ⟨_, .unlockRead hs⟩
    | _ => rw [hs] at hh; cases hh
  have hRes : w.resOwner ≠ none → ∃ u < nT, ∃ v, P.Move u w v := by
    intro hne
    obtain ⟨u, hu⟩ := Option.ne_none_iff_exists'.1 hne
    have hh := (h.res u).1 hu
    have hlt : u < nT := lt u fun hs => by rw [hs] at hh; cases hh
    cases hs : w.places u with
    | outside => rw [hs] at hh; cases hh
    | reserving => rw [hs] at hh; cases hh
    | merging =>
      cases hx : P.merge (w.locals u) w.results with
      | none => exact ⟨u, hlt, _, .mergeFail w.results hs hx⟩
      | some x => exact ⟨u, hlt, _, .merge hs hx⟩
    | merged =>
      cases hus : P.usesPos with
      | false => exact ⟨u, hlt, _, .progress hs hus⟩
      | true =>
        by_cases hp : w.posOwner = none
        · cases hb : w.posBad with
          | false => exact ⟨u, hlt, _, .lockRead hs hus hp hb⟩
          | true => exact ⟨u, hlt, _, .badRead hs hus hp hb⟩
        · exact hPos hp
    | reading => exact ⟨u, hlt, _, .read hs⟩
    | computed p => exact ⟨u, hlt, _, .unlockRead hs⟩
    | sending p => exact ⟨u, hlt, _, .send hs⟩
    | sent => exact ⟨u, hlt, _, .stop hs⟩
    | leaving => exact ⟨u, hlt, _, .leave hs⟩
  cases hs : w.places t with
  | outside =>
    cases hk' : P.kind (w.locals t) with
    | reserve =>
      by_cases hp : w.posOwner = none
      · cases hb : w.posBad with
        | false => exact ⟨t, ht, _, .lockPos hs hk' hp hb⟩
        | true => exact ⟨t, ht, _, .badPos hs hk' hp hb⟩
      · exact hPos hp
    | compute =>
      obtain ⟨l, hl⟩ := live t ht hs hk'
      exact ⟨t, ht, _, .compute hs hk' hl⟩
    | update =>
      by_cases hp : w.resOwner = none
      · cases hb : w.resBad with
        | false => exact ⟨t, ht, _, .lockRes hs hk' hp hb⟩
        | true => exact ⟨t, ht, _, .badRes hs hk' hp hb⟩
      · exact hRes hp
    | done => exact absurd hk' hk.1
    | panicked => exact absurd hk' hk.2
  | reserving => exact hPos (by rw [(h.pos t).2 (by rw [hs]; rfl)]; simp)
  | merging => exact hRes (by rw [(h.res t).2 (by rw [hs]; rfl)]; simp)
  | merged => exact hRes (by rw [(h.res t).2 (by rw [hs]; rfl)]; simp)
  | reading => exact hRes (by rw [(h.res t).2 (by rw [hs]; rfl)]; simp)
  | computed p => exact hRes (by rw [(h.res t).2 (by rw [hs]; rfl)]; simp)
  | sending p => exact hRes (by rw [(h.res t).2 (by rw [hs]; rfl)]; simp)
  | sent => exact hRes (by rw [(h.res t).2 (by rw [hs]; rfl)]; simp)
  | leaving => exact hRes (by rw [(h.res t).2 (by rw [hs]; rfl)]; simp)

/-! ## Refinement of the atomic steps -/

/-- The results and messages seen by the atomic model, while thread `l` at the place `pl` holds the lock on the results. -/
def Held (P : Program L R) (pl : Place) (l : L) (w v : Pool L R) : Prop :=
  match pl with
  | .merged => P.merge l v.results = some w.results ∧ v.sent = w.sent
  | .reading => P.merge l v.results = some w.results ∧ v.sent = w.sent
  | .computed p => v.results = w.results ∧ v.sent = w.sent ++ [p]
  | .sending p =>
    if P.usesPos then v.results = w.results ∧ v.sent = w.sent ++ [p]
    else P.merge l v.results = some w.results ∧ v.sent = w.sent ∧ p = P.progress w.results 0
  | .sent =>
    if P.usesPos then v.results = w.results ∧ v.sent = w.sent
    else P.merge l v.results = some w.results ∧ w.sent = v.sent ++ [P.progress w.results 0]
  | _ => v.results = w.results ∧ v.sent = w.sent

/-- The results and messages seen by the atomic model. -/
def PoolData (P : Program L R) (w : LockPool L R) (v : Pool L R) : Prop :=
  match w.resOwner with
  | none => (w.resBad = false → v.results = w.results) ∧ v.sent = w.sent
  | some t => Held P (w.places t) (w.locals t) w.toPool v

/-- The state of the atomic model that corresponds to a state of the threads with locks.  A thread that has panicked may have gone on
there, but then some other thread has panicked there. -/
structure PoolRel (P : Program L R) (nT : Nat) (w : LockPool L R) (v : Pool L R) : Prop where
  pos : v.pos = w.pos
  stopped : v.stopped = w.stopped
  data : PoolData P w v
  locals : ∀ t, P.kind (w.locals t) ≠ .panicked →
    v.locals t = if (w.places t).past P.usesPos then P.after (w.locals t) else w.locals t
  root : (∃ t < nT, P.kind (w.locals t) = .panicked) → ∃ t < nT, P.kind (v.locals t) = .panicked

theorem PoolRel.init (l : L) (r : R) (cancelled : Bool) :
    PoolRel P nT (Call.init l r cancelled).threads (Call.init l r cancelled).threads.toPool :=
  ⟨rfl, rfl, ⟨fun _ => rfl, rfl⟩, fun _ _ => rfl, id⟩

/-- The data are related as before if the owner of `results` and its place are the same. -/
theorem PoolData.same {w w' : LockPool L R} {v v' : Pool L R} (h : PoolData P w v) (h1 : w'.resOwner = w.resOwner)
    (h2 : ∀ u, w.resOwner = some u → w'.places u = w.places u ∧ w'.locals u = w.locals u) (h0 : w'.resBad = w.resBad)
    (h3 : w'.results = w.results) (h4 : w'.sent = w.sent) (h5 : v'.results = v.results) (h6 : v'.sent = v.sent) : PoolData P w' v' := by
  unfold PoolData at h ⊢
  rw [h1]
  cases ho : w.resOwner with
  | none => rw [ho] at h; simp only [h0, h3, h4, h5, h6]; exact h
  | some u =>
    rw [ho] at h
    obtain ⟨e1, e2⟩ := h2 u ho
    replace h : Held P (w.places u) (w.locals u) w.toPool v := h
    simp only [e1, e2]
    unfold Held at h ⊢
    simp only [h3, h4, h5, h6]
    exact h

/-- The number of moves a place is away from the next step of the atomic model, and then from leaving the place. -/
def Place.rank : Place → Nat
  | .outside => 4
  | .reserving => 3
  | .merging => 3
  | .merged => 2
  | .reading => 1
  | .computed _ => 8
  | .sending _ => 7
  | .sent => 6
  | .leaving => 5

/-- The rank of a thread; zero after a panic. -/
def LockPool.rank (P : Program L R) (w : LockPool L R) (t : Nat) : Nat :=
  if P.kind (w.locals t) = .panicked then 0 else (w.places t).rank

/-- What a move does to the corresponding state of the atomic model: nothing, or a step. -/
def PoolMatches (P : Program L R) (nT t : Nat) (w w' : LockPool L R) (v v' : Pool L R) : Prop :=
  (v' = v ∧ (P.usesPos = true → w'.rank P t + 1 ≤ w.rank P t)) ∨ (P.Step nT v v' ∧ w'.rank P t ≤ w.rank P t + 7)

theorem PoolRel.panic (hP : P.Lawful) {w : LockPool L R} {v v' : Pool L R} (h : PoolRel P nT w v) {t : Nat}
    (r : R) (hr : w.resOwner ≠ some t → r = w.results) (h1 : v'.pos = v.pos) (h2 : v'.stopped = v.stopped) (h3 : v'.results = v.results)
    (h4 : v'.sent = v.sent)
    (h5 : ∀ u, u ≠ t → v'.locals u = v.locals u) (h6 : w.resOwner = some t → v.sent = w.sent)
    (h7 : ∃ u < nT, P.kind (v'.locals u) = .panicked) : PoolRel P nT ({ w with results := r }.panic P t) v' := by
  refine ⟨h1.trans h.pos, h2.trans h.stopped, ?_, ?_, fun _ => h7⟩
  · by_cases ho : w.resOwner = some t
    · unfold PoolData
      simp only [LockPool.panic, ho, if_true]
      exact ⟨fun hb => by simp at hb, by rw [h4]; exact h6 ho⟩
    · have hrr := hr ho
      have hb : (w.resOwner == some t) = false := by simp [ho]
      refine PoolData.same h.data (by simp [LockPool.panic, ho]) (fun u hu => ?_) (by simp [LockPool.panic, hb]) (by simp [LockPool.panic, hrr]) rfl h3 h4
      have e : u ≠ t := fun e => ho (e ▸ hu)
      exact ⟨Function.update_of_ne e _ _, Function.update_of_ne e _ _⟩
  · intro u hu
    by_cases e : u = t
    · subst e
      simp only [LockPool.panic, Function.update_self] at hu
      exact absurd (hP.fail _) hu
    · simp only [LockPool.panic, Function.update_of_ne e] at hu ⊢
      rw [h5 u e]
      exact h.locals u hu

theorem panic_rank (hP : P.Lawful) (w : LockPool L R) (t : Nat) : (w.panic P t).rank P t = 0 := by
  unfold LockPool.rank
  simp only [LockPool.panic, Function.update_self, hP.fail, if_true]

theorem Place.rank_pos (pl : Place) : 0 < pl.rank := by cases pl <;> simp [Place.rank]

theorem PoolRel.move (hP : P.Lawful) {w w' : LockPool L R} {v : Pool L R} (hI : PoolInv P nT w) (h : PoolRel P nT w v) {t : Nat}
    (ht : t < nT) (hm : P.Move t w w') : ∃ v', PoolMatches P nT t w w' v v' ∧ PoolRel P nT w' v' := by
  have hr := hI.res t
  have hu := hI.update t
  have hd := h.data
  have notOwner : (w.places t).holdsRes = false → ∀ u, w.resOwner = some u → u ≠ t := fun e u ho e' => by
    have := (hI.res u).1 ho; rw [e', e] at this; cases this
  have heldData : (w.places t).holdsRes = true → Held P (w.places t) (w.locals t) w.toPool v := fun e => by
    have := hd; unfold PoolData at this; rw [hr.2 e] at this; exact this
  -- the thread itself has not panicked
  have live : ∀ {k : Kind}, P.kind (w.locals t) = k → k ≠ .panicked → P.kind (w.locals t) ≠ .panicked := fun e n => by rw [e]; exact n
  have rankw : P.kind (w.locals t) ≠ .panicked → w.rank P t = (w.places t).rank := fun e => by unfold LockPool.rank; rw [if_neg e]
  have rank' : ∀ {x : LockPool L R} {σ : Place}, x.places t = σ → x.rank P t ≤ σ.rank := fun {x σ} e => by
    unfold LockPool.rank; split
    · exact Nat.zero_le _
    · rw [e]
  -- moves that change only the place of the thread, and do not pass the moment of the update
  have same : ∀ {σ : Place} {x : LockPool L R}, P.kind (w.locals t) ≠ .panicked → σ.past P.usesPos = (w.places t).past P.usesPos →
      x.places = Function.update w.places t σ → x.locals = w.locals → ∀ u, P.kind (x.locals u) ≠ .panicked →
      v.locals u = if (x.places u).past P.usesPos then P.after (x.locals u) else x.locals u := by
    intro σ x _ hp e1 e2 u hk
    rw [e2] at hk ⊢
    by_cases e : u = t
    · subst e; rw [e1, Function.update_self, hp]; exact h.locals u hk
    · rw [e1, Function.update_of_ne e]; exact h.locals u hk
  -- steps of the atomic model
  have moved : ∀ {l l' : L} {σ : Place} {x : LockPool L R}, x.places = Function.update w.places t σ →
      (∀ u, u ≠ t → x.locals u = w.locals u) → x.locals t = l' → (l = if σ.past P.usesPos then P.after l' else l') → ∀ u,
      P.kind (x.locals u) ≠ .panicked →
      Function.update v.locals t l u = if (x.places u).past P.usesPos then P.after (x.locals u) else x.locals u := by
    intro l l' σ x e1 e2 e3 e4 u hk
    by_cases e : u = t
    · subst e; rw [e1, Function.update_self, Function.update_self, e3]; exact e4
    · rw [e1, Function.update_of_ne e, Function.update_of_ne e, e2 u e] at *
      exact h.locals u hk
  have rootKeep : ∀ {x : LockPool L R}, x.locals = w.locals → (∃ u < nT, P.kind (x.locals u) = .panicked) →
      ∃ u < nT, P.kind (v.locals u) = .panicked := fun e hx => h.root (by rw [e] at hx; exact hx)
  have rootMove : ∀ {l l' : L} {x : LockPool L R}, (∀ u, u ≠ t → x.locals u = w.locals u) → x.locals t = l' →
      (P.kind l' = .panicked → P.kind l = .panicked) → P.kind (v.locals t) ≠ .panicked → (∃ u < nT, P.kind (x.locals u) = .panicked) →
      ∃ u < nT, P.kind (Function.update v.locals t l u) = .panicked := by
    intro l l' x e1 e2 e3 e4 hx
    obtain ⟨u, hlt, hk⟩ := hx
    by_cases e : u = t
    · rw [e] at hk hlt; rw [e2] at hk; exact ⟨t, hlt, by rw [Function.update_self]; exact e3 hk⟩
    · rw [e1 u e] at hk
      obtain ⟨z, hz, hkz⟩ := h.root ⟨u, hlt, hk⟩
      have ez : z ≠ t := fun ez => e4 (ez ▸ hkz)
      exact ⟨z, hz, by rw [Function.update_of_ne ez]; exact hkz⟩
  cases hm with
  | compute hpl hk hc =>
    rename_i l
    have hl : v.locals t = w.locals t := by have := h.locals t (live hk (by decide)); rw [hpl] at this; exact this
    have hne := notOwner (by rw [hpl]; rfl)
    refine ⟨{ v with locals := Function.update v.locals t l }, Or.inr ⟨.compute ht (by rw [hl]; exact hk) (by rw [hl, h.stopped]; exact hc), ?_⟩,
      h.pos, h.stopped, ?_, ?_, ?_⟩
    · rw [rankw (live hk (by decide)), hpl]
      exact le_trans (rank' (σ := .outside) hpl) (by simp)
    · refine PoolData.same hd rfl (fun u ho => ⟨rfl, ?_⟩) rfl rfl rfl rfl rfl
      exact Function.update_of_ne (hne u ho) _ _
    · exact moved (σ := .outside) (by simp [← hpl]) (fun u e => Function.update_of_ne e _ _) (Function.update_self ..) rfl
    · exact rootMove (fun u e => Function.update_of_ne e _ _) (Function.update_self ..) id (by rw [hl, hk]; decide)
  | lockPos hpl hk ho hb =>
    have hne := notOwner (by rw [hpl]; rfl)
    refine ⟨v, Or.inl ⟨rfl, fun _ => ?_⟩, h.pos, h.stopped, ?_, ?_, rootKeep rfl⟩
    · rw [rankw (live hk (by decide)), hpl]
      exact Nat.succ_le_succ (rank' (σ := .reserving) (Function.update_self ..))
    · exact PoolData.same hd rfl (fun u ho => ⟨Function.update_of_ne (hne u ho) _ _, rfl⟩) rfl rfl rfl rfl rfl
    · exact same (σ := .reserving) (live hk (by decide)) (by rw [hpl]; rfl) rfl rfl
  | badPos hpl hk ho hb =>
    have hne : w.resOwner ≠ some t := fun e => notOwner (by rw [hpl]; rfl) t e rfl
    refine ⟨v, Or.inl ⟨rfl, fun _ => ?_⟩, ?_⟩
    · rw [rankw (live hk (by decide)), panic_rank hP]; exact Place.rank_pos _
    · exact PoolRel.panic hP h w.results (fun _ => rfl) rfl rfl rfl rfl (fun _ _ => rfl) (fun e => absurd e hne) (h.root (hI.posBad hb))
  | reserve hpl hx =>
    rename_i x
    have hk := hI.reserve t hpl
    have hl : v.locals t = w.locals t := by have := h.locals t (live hk (by decide)); rw [hpl] at this; exact this
    have hne := notOwner (by rw [hpl]; rfl)
    refine ⟨{ v with locals := Function.update v.locals t x.1, pos := x.2 },
      Or.inr ⟨.reserve ht (by rw [hl]; exact hk) (by rw [hl, h.pos]; exact hx), ?_⟩, rfl, h.stopped, ?_, ?_, ?_⟩
    · rw [rankw (live hk (by decide)), hpl]
      exact le_trans (rank' (σ := .outside) (Function.update_self ..)) (by simp [Place.rank])
    · exact PoolData.same hd rfl (fun u ho => ⟨Function.update_of_ne (hne u ho) _ _, Function.update_of_ne (hne u ho) _ _⟩) rfl rfl rfl rfl rfl
    · exact moved (σ := .outside) rfl (fun u e => Function.update_of_ne e _ _) (Function.update_self ..) rfl
    · exact rootMove (fun u e => Function.update_of_ne e _ _) (Function.update_self ..) id (by rw [hl, hk]; decide)
  | reserveFail hpl hx =>
    have hk := hI.reserve t hpl
    have hl : v.locals t = w.locals t := by have := h.locals t (live hk (by decide)); rw [hpl] at this; exact this
    have hne : w.resOwner ≠ some t := fun e => notOwner (by rw [hpl]; rfl) t e rfl
    refine ⟨{ v with locals := Function.update v.locals t (P.fail (v.locals t)) },
      Or.inr ⟨.reserveFail ht (by rw [hl]; exact hk) (by rw [hl, h.pos]; exact hx), ?_⟩, ?_⟩
    · rw [panic_rank hP]; omega
    · exact PoolRel.panic hP h w.results (fun _ => rfl) rfl rfl rfl rfl (fun u e => Function.update_of_ne e _ _) (fun e => absurd e hne)
        ⟨t, ht, by simp only [Function.update_self]; exact hP.fail _⟩
  | lockRes hpl hk ho hb =>
    refine ⟨v, Or.inl ⟨rfl, fun _ => ?_⟩, h.pos, h.stopped, ?_, ?_, rootKeep rfl⟩
    · rw [rankw (live hk (by decide)), hpl]
      exact Nat.succ_le_succ (rank' (σ := .merging) (Function.update_self ..))
    · unfold PoolData at hd ⊢
      rw [ho] at hd
      simp only [Function.update_self, Held]
      exact ⟨hd.1 hb, hd.2⟩
    · exact same (σ := .merging) (live hk (by decide)) (by rw [hpl]; rfl) rfl rfl
  | badRes hpl hk ho hb =>
    have hne : w.resOwner ≠ some t := fun e => notOwner (by rw [hpl]; rfl) t e rfl
    refine ⟨v, Or.inl ⟨rfl, fun _ => ?_⟩, ?_⟩
    · rw [rankw (live hk (by decide)), panic_rank hP]; exact Place.rank_pos _
    · exact PoolRel.panic hP h w.results (fun _ => rfl) rfl rfl rfl rfl (fun _ _ => rfl) (fun e => absurd e hne) (h.root (hI.resBad hb).2)
  | merge hpl hx =>
    have hk := hu (by rw [hpl]; rfl)
    have hh := heldData (by rw [hpl]; rfl)
    have ho := hr.2 (by rw [hpl]; rfl)
    rw [hpl] at hh
    refine ⟨v, Or.inl ⟨rfl, fun _ => ?_⟩, h.pos, h.stopped, ?_, ?_, rootKeep rfl⟩
    · rw [rankw (live hk (by decide)), hpl]
      exact Nat.succ_le_succ (rank' (σ := .merged) (Function.update_self ..))
    · unfold PoolData
      simp only [ho, Function.update_self, Held]
      exact ⟨by rw [hh.1]; exact hx, hh.2⟩
    · exact same (σ := .merged) (live hk (by decide)) (by rw [hpl]; rfl) rfl rfl
  | mergeFail r hpl hx =>
    have hk := hu (by rw [hpl]; rfl)
    have hh := heldData (by rw [hpl]; rfl)
    have ho := hr.2 (by rw [hpl]; rfl)
    have hl : v.locals t = w.locals t := by have := h.locals t (live hk (by decide)); rw [hpl] at this; exact this
    rw [hpl] at hh
    refine ⟨{ v with locals := Function.update v.locals t (P.fail (v.locals t)) },
      Or.inr ⟨.updateFail ht (by rw [hl]; exact hk) (by rw [hl, hh.1]; exact hx), ?_⟩, ?_⟩
    · rw [panic_rank hP]; omega
    · exact PoolRel.panic hP h r (fun e => absurd ho e) rfl rfl rfl rfl (fun u e => Function.update_of_ne e _ _) (fun _ => hh.2)
        ⟨t, ht, by simp only [Function.update_self]; exact hP.fail _⟩
  | lockRead hpl hus hop hb =>
    have hk := hu (by rw [hpl]; rfl)
    have hh := heldData (by rw [hpl]; rfl)
    have ho := hr.2 (by rw [hpl]; rfl)
    rw [hpl] at hh
    refine ⟨v, Or.inl ⟨rfl, fun _ => ?_⟩, h.pos, h.stopped, ?_, ?_, rootKeep rfl⟩
    · rw [rankw (live hk (by decide)), hpl]
      exact Nat.succ_le_succ (rank' (σ := .reading) (Function.update_self ..))
    · unfold PoolData
      simp only [ho, Function.update_self, Held]
      exact hh
    · exact same (σ := .reading) (live hk (by decide)) (by rw [hpl]; rfl) rfl rfl
  | badRead hpl hus hop hb =>
    have hk := hu (by rw [hpl]; rfl)
    have hh := heldData (by rw [hpl]; rfl)
    have ho := hr.2 (by rw [hpl]; rfl)
    rw [hpl] at hh
    refine ⟨v, Or.inl ⟨rfl, fun _ => ?_⟩, ?_⟩
    · rw [rankw (live hk (by decide)), panic_rank hP]; exact Place.rank_pos _
    · exact PoolRel.panic hP h w.results (fun _ => rfl) rfl rfl rfl rfl (fun _ _ => rfl) (fun _ => hh.2) (h.root (hI.posBad hb))
  | read hpl =>
    have hk := hu (by rw [hpl]; rfl)
    have hh := heldData (by rw [hpl]; rfl)
    have ho := hr.2 (by rw [hpl]; rfl)
    have hl : v.locals t = w.locals t := by have := h.locals t (live hk (by decide)); rw [hpl] at this; exact this
    have hus := hI.uses t (Or.inl hpl)
    rw [hpl] at hh
    refine ⟨_, Or.inr ⟨.update ht (by rw [hl]; exact hk) (by rw [hl]; exact hh.1), ?_⟩, h.pos, ?_, ?_, ?_, ?_⟩
    · rw [rankw (live hk (by decide)), hpl]
      exact le_trans (rank' (σ := .computed (P.progress w.results w.pos)) (Function.update_self ..)) (by simp [Place.rank])
    · simp only [hP.stop hus, Bool.false_or]; exact h.stopped
    · unfold PoolData
      simp only [ho, Function.update_self, Held]
      refine ⟨trivial, ?_⟩
      rw [hh.2, h.pos]
    · exact moved (σ := .computed _) (l' := w.locals t) rfl (fun _ _ => rfl) rfl (by rw [hl]; rfl)
    · refine rootMove (fun _ _ => rfl) (l' := w.locals t) rfl (fun e => absurd e (live hk (by decide))) (by rw [hl, hk]; decide)
  | unlockRead hpl =>
    rename_i p
    have hk := hu (by rw [hpl]; rfl)
    have hh := heldData (by rw [hpl]; rfl)
    have ho := hr.2 (by rw [hpl]; rfl)
    have hus := hI.uses t (Or.inr ⟨_, hpl⟩)
    rw [hpl] at hh
    refine ⟨v, Or.inl ⟨rfl, fun _ => ?_⟩, h.pos, h.stopped, ?_, ?_, rootKeep rfl⟩
    · rw [rankw (live hk (by decide)), hpl]
      exact Nat.succ_le_succ (rank' (σ := .sending p) (Function.update_self ..))
    · unfold PoolData
      simp only [ho, Function.update_self, Held, hus, if_true]
      exact hh
    · exact same (σ := .sending p) (live hk (by decide)) (by rw [hpl, hus]; rfl) rfl rfl
  | progress hpl hus =>
    have hk := hu (by rw [hpl]; rfl)
    have hh := heldData (by rw [hpl]; rfl)
    have ho := hr.2 (by rw [hpl]; rfl)
    rw [hpl] at hh
    refine ⟨v, Or.inl ⟨rfl, fun e => by rw [hus] at e; cases e⟩, h.pos, h.stopped, ?_, ?_, rootKeep rfl⟩
    · unfold PoolData
      simp only [ho, Function.update_self, Held, hus]
      exact ⟨hh.1, hh.2, hP.progress hus _ _ _⟩
    · exact same (σ := .sending _) (live hk (by decide)) (by rw [hpl, hus]; rfl) rfl rfl
  | send hpl =>
    rename_i p
    have hk := hu (by rw [hpl]; rfl)
    have hh := heldData (by rw [hpl]; rfl)
    have ho := hr.2 (by rw [hpl]; rfl)
    rw [hpl] at hh
    refine ⟨v, Or.inl ⟨rfl, fun _ => ?_⟩, h.pos, h.stopped, ?_, ?_, rootKeep rfl⟩
    · rw [rankw (live hk (by decide)), hpl]
      exact Nat.succ_le_succ (rank' (σ := .sent) (Function.update_self ..))
    · unfold PoolData
      simp only [ho, Function.update_self]
      unfold Held at hh ⊢
      simp only at hh ⊢
      cases hus : P.usesPos with
      | true => rw [hus] at hh; exact hh
      | false =>
        rw [hus] at hh
        exact ⟨hh.1, by rw [hh.2.1, ← hh.2.2]⟩
    · exact same (σ := .sent) (live hk (by decide)) (by rw [hpl]; rfl) rfl rfl
  | stop hpl =>
    have hk := hu (by rw [hpl]; rfl)
    have hh := heldData (by rw [hpl]; rfl)
    have ho := hr.2 (by rw [hpl]; rfl)
    rw [hpl] at hh
    cases hus : P.usesPos with
    | true =>
      simp only [Held, hus, if_true] at hh
      refine ⟨v, Or.inl ⟨rfl, fun _ => ?_⟩, h.pos, ?_, ?_, ?_, rootKeep rfl⟩
      · rw [rankw (live hk (by decide)), hpl]
        exact Nat.succ_le_succ (rank' (σ := .leaving) (Function.update_self ..))
      · simp only [hP.stop hus, Bool.false_or]; exact h.stopped
      · unfold PoolData
        simp only [ho, Function.update_self, Held]
        exact hh
      · exact same (σ := .leaving) (live hk (by decide)) (by rw [hpl, hus]; rfl) rfl rfl
    | false =>
      simp only [Held, hus] at hh
      have hl : v.locals t = w.locals t := by
        have := h.locals t (live hk (by decide)); rw [hpl, hus] at this; exact this
      refine ⟨_, Or.inr ⟨.update ht (by rw [hl]; exact hk) (by rw [hl]; exact hh.1), ?_⟩, h.pos, ?_, ?_, ?_, ?_⟩
      · rw [rankw (live hk (by decide)), hpl]
        exact le_trans (rank' (σ := .leaving) (Function.update_self ..)) (by simp [Place.rank])
      · simp only [hl, h.stopped]
      · unfold PoolData
        simp only [ho, Function.update_self, Held]
        exact ⟨trivial, by rw [hh.2, hP.progress hus _ _ 0]⟩
      · exact moved (σ := .leaving) (l' := w.locals t) rfl (fun _ _ => rfl) rfl (by rw [hl]; rfl)
      · refine rootMove (fun _ _ => rfl) (l' := w.locals t) rfl (fun e => absurd e (live hk (by decide))) (by rw [hl, hk]; decide)
  | leave hpl =>
    have hk := hu (by rw [hpl]; rfl)
    have hh := heldData (by rw [hpl]; rfl)
    have hl : v.locals t = P.after (w.locals t) := by have := h.locals t (live hk (by decide)); rw [hpl] at this; exact this
    rw [hpl] at hh
    refine ⟨v, Or.inl ⟨rfl, fun _ => ?_⟩, h.pos, h.stopped, ?_, ?_, ?_⟩
    · rw [rankw (live hk (by decide)), hpl]
      exact Nat.succ_le_succ (rank' (σ := .outside) (Function.update_self ..))
    · unfold PoolData
      exact ⟨fun _ => hh.1, hh.2⟩
    · intro u hku
      by_cases e : u = t
      · subst e
        simp only [Function.update_self]
        exact hl
      · simp only [Function.update_of_ne e] at hku ⊢
        exact h.locals u hku
    · rintro ⟨u, hu', hku⟩
      by_cases e : u = t
      · subst e
        simp only [Function.update_self] at hku
        exact ⟨u, hu', by rw [hl]; exact hku⟩
      · simp only [Function.update_of_ne e] at hku
        exact h.root ⟨u, hu', hku⟩

end Pokers
