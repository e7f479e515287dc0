import Verif.Proofs.ReleaseRun
/-!
The release build when the number of combinations is zero modulo `2 ^ 64`.
-/
namespace Pokers
open Spec CombinedRange

/-- Nothing has been counted. -/
structure ZeroRes (r : Results) : Prop where
  wins : ∀ p, r.wins p = 0
  ties : ∀ p, r.ties p = 0
  masks : ∀ i, r.winsByMask i = 0
  evals : r.evalCount = 0
  hands : ∀ k, (r.handResults k).wins = 0 ∧ (r.handResults k).ties = 0 ∧ (r.handResults k).total = 0

theorem startResults_zero {s : Sim} {r0 : Results} {flag : Nat} (h : startResults s = some (r0, flag)) : ZeroRes r0 := by
  obtain ⟨s1, s2, s3, _⟩ := startResults_counts h
  refine ⟨s1, s2, fun i => ?_, congrArg Prod.snd s3, fun k => ?_⟩
  · exact congrFun (congrArg (fun x : FT => x.1.1) s3) i
  · have hc : cellOf (r0.handResults k) = 0 := congrFun (congrArg (fun x : FT => x.1.2) s3) k
    exact ⟨congrArg (fun c : Cell => c.1) hc, congrArg (fun c : Cell => c.2.1) hc, congrArg (fun c : Cell => c.2.2.1) hc⟩

def ZeroMerge (m : Merge) : Prop := (∀ p, m.wins p = 0) ∧ (∀ p, m.ties p = 0) ∧ ∀ i, m.winsByMask i = 0

theorem update_zero {α : Type} [Zero α] {f : Nat → α} (h : ∀ p, f p = 0) {q : Nat} {x : α} (hx : x = 0) : ∀ p, Function.update f q x p = 0 := by
  intro p
  rw [Function.update_apply]
  split
  · exact hx
  · exact h p

theorem foldl_always {α β : Type} {P : β → Prop} {f : β → α → β} (hf : ∀ b a, P b → P (f b a)) : ∀ (l : List α) (b : β), P b → P (l.foldl f b)
  | [], _, h => h
  | a :: l, b, h => foldl_always hf l (f b a) (hf b a h)

theorem mergePlayersR_zero {n : Nat} {b : Batch} (hb : ∀ i, b.winsByMask i = 0) (i : Nat) {m : Merge} (h : ZeroMerge m) :
    ZeroMerge (mergePlayersR n b i m).1 := by
  unfold mergePlayersR
  simp only
  refine foldl_always (P := fun x : Merge × Nat => ZeroMerge x.1) ?_ _ (m, 0) h
  rintro ⟨m, actual⟩ j hm
  simp only
  split
  · split
    · refine ⟨?_, hm.2.1, hm.2.2⟩
      exact update_zero hm.1 (by rw [hm.1, hb]; rfl)
    · refine ⟨hm.1, ?_, hm.2.2⟩
      exact update_zero hm.2.1 (by rw [hm.2.1, hb, Nat.zero_div, Nat.cast_zero, fl_zero, add_zero, fl_zero])
  · exact hm

theorem mergeMasksR_zero {n : Nat} {b : Batch} (hb : ∀ i, b.winsByMask i = 0) {m : Merge} (h : ZeroMerge m) : ZeroMerge (mergeMasksR n b m) := by
  unfold mergeMasksR
  refine foldl_always (P := ZeroMerge) ?_ _ m h
  intro m i hm
  have h1 : ZeroMerge (mergePlayersR n b i { m with batchHands := wrap (m.batchHands + b.winsByMask i) }).1 := mergePlayersR_zero hb i hm
  refine ⟨h1.1, h1.2.1, ?_⟩
  exact update_zero h1.2.2 (by rw [h1.2.2, hb]; rfl)

theorem updateResultsR_zero {n : Nat} {b : Batch} (hb : ∀ i, b.winsByMask i = 0) (he : b.evalCount = 0) {hs : HandStats}
    (hh : ∀ k, hs k = UnitResults.default) {r : Results} (h : ZeroRes r) : ZeroRes (updateResultsR n b hs r) := by
  have hm : ZeroMerge (mergeMasksR n b ⟨r.wins, r.ties, r.winsByMask, 0, 0⟩) := mergeMasksR_zero hb ⟨h.wins, h.ties, h.masks⟩
  refine ⟨hm.1, hm.2.1, hm.2.2, ?_, fun k => ?_⟩
  · show wrap (r.evalCount + b.evalCount) = 0
    rw [h.evals, he]; rfl
  · unfold updateResultsR
    simp only
    split
    · rw [hh k]
      unfold UnitResults.addAssignR
      simp only [(h.hands k).1, (h.hands k).2.1, (h.hands k).2.2]
      exact ⟨rfl, rfl, rfl⟩
    · exact h.hands k

/-- The states of the release build that has no position to evaluate. -/
structure ZeroWorld (n : Nat) (w : World) : Prop where
  locals : ∀ t, ((w.locals t).stats = Batch.init n ∧ (w.locals t).hands = HandStats.init) ∧
    ((w.locals t).pc = .reserve ∨ (w.locals t).pc = .final ∨ (w.locals t).pc = .done)
  pos : w.shared.enumPos = 0
  results : ZeroRes w.shared.results
  sent : ∀ x ∈ w.shared.sent, x = 0

theorem progress_zero : progressExactF 0 0 = 0 := by decide +kernel

theorem ZeroWorld.step {s : Sim} {ds : List DividerU64} {size nT : Nat} {u v : World} (h : ZeroWorld s.nPlayers u)
    (hs : StepR s ds 0 size nT u v) : ZeroWorld s.nPlayers v := by
  cases hs with
  | cancel => exact ⟨h.locals, h.pos, h.results, h.sent⟩
  | thread t ht hpc =>
    obtain ⟨⟨h1, h2⟩, h3⟩ := h.locals t
    have hupd : ∀ (l : Local), (l.stats = Batch.init s.nPlayers ∧ l.hands = HandStats.init) ∧ (l.pc = .reserve ∨ l.pc = .final ∨ l.pc = .done) →
        ∀ t', (((Function.update u.locals t l) t').stats = Batch.init s.nPlayers ∧ ((Function.update u.locals t l) t').hands = HandStats.init) ∧
          (((Function.update u.locals t l) t').pc = .reserve ∨ ((Function.update u.locals t l) t').pc = .final ∨
            ((Function.update u.locals t l) t').pc = .done) := by
      intro l hl t'
      by_cases ht' : t' = t
      · subst ht'; rw [Function.update_self]; exact hl
      · rw [Function.update_of_ne ht']; exact h.locals t'
    rcases h3 with h3 | h3 | h3
    · have e : threadStepR s ds 0 size (u.locals t) u.shared =
          ({ u.locals t with pos := u.shared.enumPos, stop := 0, pc := .final }, { u.shared with enumPos := 0 }) := by
        unfold threadStepR
        rw [h3]
        simp only [Nat.zero_min, ge_iff_le, Nat.zero_le, if_true]
      rw [e]
      exact ⟨hupd _ ⟨⟨h1, h2⟩, Or.inr (Or.inl rfl)⟩, rfl, h.results, h.sent⟩
    · have e : threadStepR s ds 0 size (u.locals t) u.shared =
          ({ u.locals t with pc := .done }, u.shared.updateR s 0 (u.locals t)) := by
        unfold threadStepR
        rw [h3]
      rw [e]
      refine ⟨hupd _ ⟨⟨h1, h2⟩, Or.inr (Or.inr rfl)⟩, h.pos, ?_, ?_⟩
      · show ZeroRes (updateResultsR s.nPlayers (u.locals t).stats (u.locals t).hands u.shared.results)
        rw [h1, h2]
        exact updateResultsR_zero (fun i => rfl) rfl (fun k => rfl) h.results
      · intro x hx
        rcases List.mem_append.1 hx with hx | hx
        · exact h.sent x hx
        · rw [List.mem_singleton.1 hx, h.pos, progress_zero]
    · exact absurd h3 hpc.1

theorem ZeroWorld.steps {s : Sim} {ds : List DividerU64} {size nT : Nat} {u v : World} (h : ZeroWorld s.nPlayers u)
    (hs : StepsR s ds 0 size nT u v) : ZeroWorld s.nPlayers v := by
  induction hs with
  | refl => exact h
  | step _ hst ih => exact ih.step hst

theorem StepsR.trans {s : Sim} {ds : List DividerU64} {total size nT : Nat} {u v w : World} (h : StepsR s ds total size nT u v)
    (h' : StepsR s ds total size nT v w) : StepsR s ds total size nT u w := by
  induction h' with
  | refl => exact h
  | step _ hst ih => exact .step ih hst

/-- All threads come to their end. -/
theorem zero_finish (s : Sim) (ds : List DividerU64) (size nT : Nat) (u : World)
    (h0 : ∀ t, (u.locals t).pc = .reserve) :
    ∃ v, StepsR s ds 0 size nT u v ∧ (∀ t < nT, (v.locals t).pc = .done) ∧ v.shared.stopped = u.shared.stopped := by
  have key : ∀ k ≤ nT, ∃ v, StepsR s ds 0 size nT u v ∧ (∀ t < k, (v.locals t).pc = .done) ∧ (∀ t, k ≤ t → (v.locals t).pc = .reserve) ∧
      v.shared.stopped = u.shared.stopped := by
    intro k
    induction k with
    | zero => exact fun _ => ⟨u, .refl, fun t ht => by omega, fun t _ => h0 t, rfl⟩
    | succ k ih =>
      intro hk
      obtain ⟨v, h1, h2, h3, h4⟩ := ih (by omega)
      have hpc := h3 k le_rfl
      have e : threadStepR s ds 0 size (v.locals k) v.shared =
          ({ v.locals k with pos := v.shared.enumPos, stop := 0, pc := .final }, { v.shared with enumPos := 0 }) := by
        unfold threadStepR
        rw [hpc]
        simp only [Nat.zero_min, ge_iff_le, Nat.zero_le, if_true]
      have s1 := StepR.thread (s := s) (dividers := ds) (total := 0) (size := size) v k (by omega : k < nT)
        ⟨by rw [hpc]; decide, by rw [hpc]; decide⟩
      rw [e] at s1
      have s2 := StepR.thread (s := s) (dividers := ds) (total := 0) (size := size)
        (w := ⟨Function.update v.locals k { v.locals k with pos := v.shared.enumPos, stop := 0, pc := .final }, { v.shared with enumPos := 0 }⟩)
        k (by omega : k < nT) ⟨by simp only [Function.update_self]; decide, by simp only [Function.update_self]; decide⟩
      refine ⟨_, .step (.step h1 s1) s2, fun t ht => ?_, fun t ht => ?_, ?_⟩
      · simp only
        by_cases htk : t = k
        · subst htk
          rw [Function.update_self, Function.update_self]
          rfl
        · rw [Function.update_of_ne htk, Function.update_of_ne htk]
          exact h2 t (by omega)
      · simp only
        rw [Function.update_of_ne (by omega), Function.update_of_ne (by omega)]
        exact h3 t (by omega)
      · rw [← h4]
        simp only
        rw [Function.update_self]
        rfl
  obtain ⟨v, h1, h2, _, h4⟩ := key nT le_rfl
  exact ⟨v, h1, h2, h4⟩

theorem initial_zero {s : Sim} {r0 : Results} {flag : Nat} {cancelled : Bool} (h : startResults s = some (r0, flag)) :
    ZeroWorld s.nPlayers (World.init s r0 cancelled) :=
  ⟨fun _ => ⟨⟨rfl, rfl⟩, Or.inl rfl⟩, rfl, startResults_zero h, fun x hx => by cases hx⟩

/-- The number of combinations modulo `2 ^ 64`. -/
theorem preflopComboCountR_mod (s : Sim) : s.preflopComboCountR = (s.combinedRanges.map (·.size)).prod % 2 ^ 64 := by
  unfold Sim.preflopComboCountR
  have key : ∀ (l : List CombinedRange) (k : Nat), l.foldl (fun count c => wrap (count * c.size)) (k % 2 ^ 64) =
      k * (l.map (·.size)).prod % 2 ^ 64 := by
    intro l
    induction l with
    | nil => intro k; simp
    | cons c l ih =>
      intro k
      rw [List.foldl_cons, List.map_cons, List.prod_cons]
      have : wrap (k % 2 ^ 64 * c.size) = k * c.size % 2 ^ 64 := by
        unfold wrap
        rw [Nat.mod_mul_mod]
      rw [this, ih, Nat.mul_assoc]
  have := key s.combinedRanges 1
  rw [Nat.one_mul] at this
  exact this

end Pokers
