import Verif.Model.Callback
import Mathlib.Data.List.Infix
/-!
# The main thread next to any threads
-/
namespace Pokers

variable {W : Type} {T : Threads W} {cb : Callback}

/-- The messages of a channel only become more. -/
structure Threads.Grows (T : Threads W) : Prop where
  step : ∀ {w v}, T.step w v → T.sent v = T.sent w ∨ ∃ m, T.sent v = T.sent w ++ [m]
  cancel : ∀ w, T.sent (T.cancel w) = T.sent w

/-- Steps of the threads alone. -/
inductive Threads.Run (T : Threads W) (w : W) : Nat → W → Prop
  | refl : T.Run w 0 w
  | step {k : Nat} {u v : W} : T.Run w k u → T.step u v → T.Run w (k + 1) v
  | cancel {k : Nat} {u : W} : T.Run w k u → T.Run w k (T.cancel u)

theorem ScopeSteps.run (hg : T.Grows) {w : W} (h0 : T.sent w = []) {k : Nat} {x : Scope W} (h : ScopeSteps T cb ⟨w, []⟩ k x) :
    ∃ j, T.Run w j x.world ∧ x.calls <+: T.sent x.world ∧ (T.sent x.world).length ≤ j ∧ k = j + x.calls.length := by
  induction h with
  | refl => exact ⟨0, .refl, List.nil_prefix, by simp [h0], rfl⟩
  | step _ hs ih =>
    obtain ⟨j, h1, h2, h3, h4⟩ := ih
    cases hs with
    | thread hst =>
      refine ⟨j + 1, .step h1 hst, ?_, ?_, ?_⟩
      · rcases hg.step hst with e | ⟨m, e⟩
        · simp only [e]; exact h2
        · simp only [e]; exact h2.trans (List.prefix_append _ _)
      · rcases hg.step hst with e | ⟨m, e⟩
        · simp only [e]; omega
        · simp only [e, List.length_append, List.length_singleton]; omega
      · simp only; omega
    | receive hm =>
      rename_i y _ m
      have hp : y.calls ++ [m] <+: T.sent y.world := by
        obtain ⟨rest, e⟩ := h2
        rw [← e, List.getElem?_append_right (le_refl _), Nat.sub_self] at hm
        cases rest with
        | nil => cases hm
        | cons a rest =>
          have : a = m := by simpa using hm
          subst this
          exact ⟨rest, by rw [← e, List.append_assoc]; rfl⟩
      have hs : T.sent (if cb y.calls m then T.cancel y.world else y.world) = T.sent y.world := by
        split
        · exact hg.cancel _
        · rfl
      refine ⟨j, ?_, by simp only [hs]; exact hp, by simp only [hs]; exact h3, by simp only [List.length_append, List.length_singleton]; omega⟩
      simp only
      split
      · exact .cancel h1
      · exact h1
  | cancel _ ih =>
    obtain ⟨j, h1, h2, h3, h4⟩ := ih
    exact ⟨j, .cancel h1, by simp only [hg.cancel]; exact h2, by simp only [hg.cancel]; exact h3, h4⟩

/-- The threads can run first … -/
theorem Threads.Run.scope {w v : W} {k : Nat} (h : T.Run w k v) : ScopeSteps T cb ⟨w, []⟩ k ⟨v, []⟩ := by
  induction h with
  | refl => exact .refl
  | step _ hs ih => exact .step ih (.thread hs)
  | cancel _ ih => exact .cancel ih

/-- … and the messages be received afterwards. -/
theorem ScopeSteps.drain (hg : T.Grows) {x₀ : Scope W} : ∀ (n : Nat) {k : Nat} {x : Scope W}, ScopeSteps T cb x₀ k x → x.calls <+: T.sent x.world →
    (T.sent x.world).length = x.calls.length + n →
    ∃ y, ScopeSteps T cb x₀ (k + n) y ∧ y.calls = T.sent x.world ∧ T.Run x.world 0 y.world ∧ ((∀ l m, cb l m = false) → y.world = x.world) := by
  intro n
  induction n with
  | zero =>
    intro k x h hp hl
    exact ⟨x, h, hp.eq_of_length (by omega), .refl, fun _ => rfl⟩
  | succ n ih =>
    intro k x h hp hl
    obtain ⟨rest, e⟩ := hp
    cases rest with
    | nil => rw [List.append_nil] at e; rw [← e] at hl; omega
    | cons m rest =>
      have hm : (T.sent x.world)[x.calls.length]? = some m := by
        rw [← e, List.getElem?_append_right (le_refl _), Nat.sub_self]; rfl
      have h1 := ScopeSteps.step h (ScopeStep.receive (cb := cb) hm)
      have hs : T.sent (if cb x.calls m then T.cancel x.world else x.world) = T.sent x.world := by
        split
        · exact hg.cancel _
        · rfl
      have hrun : T.Run x.world 0 (if cb x.calls m then T.cancel x.world else x.world) := by
        split
        · exact .cancel .refl
        · exact .refl
      obtain ⟨y, y1, y2, y4, y5⟩ := ih h1 (by simp only [hs]; exact ⟨rest, by rw [← e, List.append_assoc]; rfl⟩)
        (by simp only [hs, List.length_append, List.length_singleton]; omega)
      have tr : ∀ {a b c : W} {i j : Nat}, T.Run a i b → T.Run b j c → T.Run a (i + j) c := by
        intro a b c i j p q
        induction q with
        | refl => exact p
        | step _ hs ih => exact .step ih hs
        | cancel _ ih => exact .cancel ih
      have y4' : T.Run x.world 0 y.world := tr hrun y4
      refine ⟨y, by rw [show k + (n + 1) = k + 1 + n by omega]; exact y1, by rw [y2]; exact hs, y4', fun hn => ?_⟩
      rw [y5 hn]
      simp only [hn, Bool.false_eq_true, if_false]

end Pokers
