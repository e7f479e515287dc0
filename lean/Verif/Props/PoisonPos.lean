import Verif.Props.Poison
import Verif.Proofs.PoisonPos
/-!
C81: the other lock.  A reservation whose sum overflows panics with the lock on `enum_pos`.
-/
namespace Pokers

variable {nT : Nat} {cancelled : Bool} {cb : CallbackP}

theorem Call.Steps.append {L R : Type} {P : Program L R} {x y z : Call L R} {i j : Nat} (h : Call.Steps P nT cb x i y)
    (h' : Call.Steps P nT cb y j z) : ∃ k, Call.Steps P nT cb x k z := by
  induction h' with
  | refl => exact ⟨i, h⟩
  | step _ hs ih =>
    obtain ⟨k, ih⟩ := ih
    exact ⟨k + 1, .step ih hs⟩
  | cancel _ ih =>
    obtain ⟨k, ih⟩ := ih
    exact ⟨k, .cancel ih⟩

theorem reserve_overflows {s : Sim} {ds : List DividerU64} {total size : Nat} {l : Local} {pos : Nat} (h : 2 ^ 64 ≤ pos + size) :
    (exactDebug s ds total size).reserve l pos = none := by
  show Option.map _ (fits 64 _) = none
  unfold fits
  rw [if_neg (by omega)]
  rfl

/-- C81: a thread of a debug build whose reservation overflows (line 963) poisons `enum_pos`.  From then on no position is handed out, a
message is sent only if a thread was about to send it, and every thread panics except those that have ended and the one that was
handing over its results. -/
theorem C81_poison_pos {s : Sim} {ds : List DividerU64} {total size m : Nat} {r0 : Results} {i j t : Nat} {x z : Call Local Results}
    {v : LockPool Local Results}
    (hx : Call.Steps (exactDebug s ds total size) nT cb (Call.init (Local.init m) r0 cancelled) i x) (ht : t < nT)
    (hm : (exactDebug s ds total size).Move t x.threads v) (hres : x.threads.places t = .reserving)
    (hover : 2 ^ 64 ≤ x.threads.pos + size) (hz : Call.Steps (exactDebug s ds total size) nT cb { x with threads := v } j z) :
    z.threads.pos = x.threads.pos ∧ z.threads.sent.length ≤ x.threads.sent.length + 1 ∧
    ((∀ u p, x.threads.places u ≠ .sending p) → z.threads.sent = x.threads.sent) ∧
    (∀ u, (z.threads.locals u).pc = .done → (x.threads.locals u).pc = .done ∨ x.threads.resOwner = some u) ∧
    ((∀ w, ¬ Call.Step (exactDebug s ds total size) nT cb z w) →
      ∀ u < nT, (x.threads.locals u).pc ≠ .done → x.threads.resOwner ≠ some u → (z.threads.locals u).pc = .panicked) := by
  obtain ⟨g1, _, g3, g4, g5⟩ := hx.poisonedPos (y := { x with threads := v }) (fun l b l' => exactProgram_compute) (exactProgram_lawful _ _ _ _ _ _) rfl ht hm hres (reserve_overflows hover) hz
  have hdone : ∀ u, (z.threads.locals u).pc = .done → (x.threads.locals u).pc = .done ∨ x.threads.resOwner = some u :=
    fun u hu => (g5 u (kind_done.2 hu)).imp kind_done.1 id
  refine ⟨g1, g3, g4, hdone, fun hstuck u hu hk hr => ?_⟩
  obtain ⟨k, hk'⟩ := (Call.Steps.step hx (.thread ht hm)).append hz
  have hend : (z.threads.locals u).pc = .done ∨ (z.threads.locals u).pc = .panicked := by
    rcases (C81_debug_ends hk').2 hstuck with h | h
    · exact .inl (kind_done.1 (h.1 u hu))
    · exact (h.1 u hu).imp kind_done.1 kind_panicked.1
  rcases hend with h | h
  · rcases hdone u h with h | h
    · exact absurd h hk
    · exact absurd h hr
  · exact h

/-- A batch size that overflows at once: thread 0 of two panics with the lock, and then nothing is ever sent, and when nothing can move
anymore thread 1 has panicked too. -/
example (s : Sim) (ds : List DividerU64) (r : Results) : ∃ x v,
    Call.Steps (exactDebug s ds 5 (2 ^ 64)) 2 cb (Call.init (Local.init s.nPlayers) r false) 1 x ∧
    (exactDebug s ds 5 (2 ^ 64)).Move 0 x.threads v ∧ v.posBad = true ∧
    ∀ j z, Call.Steps (exactDebug s ds 5 (2 ^ 64)) 2 cb { x with threads := v } j z → z.threads.sent = [] ∧ z.threads.pos = 0 ∧
      ((∀ w, ¬ Call.Step (exactDebug s ds 5 (2 ^ 64)) 2 cb z w) → (z.threads.locals 1).pc = .panicked) := by
  have h1 := Call.Step.thread (P := exactDebug s ds 5 (2 ^ 64)) (nThreads := 2) (cb := cb)
    (x := Call.init (Local.init s.nPlayers) r false) (t := 0) (by decide) (.lockPos rfl rfl rfl rfl)
  have hx := Call.Steps.step .refl h1
  have hm := Program.Move.reserveFail (P := exactDebug s ds 5 (2 ^ 64)) (t := 0)
    (w := { (Call.init (Local.init s.nPlayers) r false).threads with
      places := Function.update (fun _ => Place.outside) 0 .reserving, posOwner := some 0 })
    (by simp only [Function.update_self]) (reserve_overflows (by show 2 ^ 64 ≤ 0 + 2 ^ 64; omega))
  refine ⟨_, _, hx, hm, rfl, fun j z hz => ?_⟩
  obtain ⟨g1, _, g3, _, g5⟩ := C81_poison_pos hx (by decide) hm (by simp only [Call.init, Function.update_self]) (by show 2 ^ 64 ≤ 0 + 2 ^ 64; omega) hz
  refine ⟨g3 (fun u p => ?_), g1, fun hs => g5 hs 1 (by decide) (fun h => by cases h) (fun h => by cases h)⟩
  by_cases e : u = 0
  · subst e; simp [Call.init]
  · simp [Call.init, Function.update_of_ne e]

end Pokers
