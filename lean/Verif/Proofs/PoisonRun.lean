import Verif.Proofs.Poison
/-!
# Calls: threads with locks, channel and callback
-/
namespace Pokers
open Finset (range)

variable {L R : Type} {P : Program L R} {nT : Nat} {cb : CallbackP}

theorem move_others {w w' : LockPool L R} {t : Nat} (hm : P.Move t w w') {u : Nat} (h : u ≠ t) :
    w'.places u = w.places u ∧ w'.locals u = w.locals u := by
  cases hm <;> first
    | exact ⟨Function.update_of_ne h _ _, Function.update_of_ne h _ _⟩
    | exact ⟨rfl, Function.update_of_ne h _ _⟩
    | exact ⟨Function.update_of_ne h _ _, rfl⟩

/-- Every state reached with locks corresponds to a state reached by the atomic model; if the progress is read from the position, the
number of moves is bounded by that of the atomic model. -/
theorem LockRun.refines (hP : P.Lawful) {w : LockPool L R} {v : Pool L R} (hI : PoolInv P nT w) (hR : PoolRel P nT w v)
    {k : Nat} {w' : LockPool L R} (h : LockRun P nT w k w') :
    ∃ v' j, P.Steps nT v j v' ∧ PoolRel P nT w' v' ∧
      (P.usesPos = true → k + ∑ t ∈ range nT, w'.rank P t ≤ 8 * j + ∑ t ∈ range nT, w.rank P t) := by
  induction h with
  | refl => exact ⟨v, 0, .refl, hR, fun _ => by omega⟩
  | step hr ht hm ih =>
    rename_i k u x t
    obtain ⟨v', j, h1, h2, h3⟩ := ih
    obtain ⟨v'', h4, h5⟩ := h2.move hP (hI.run hP hr) ht hm
    have e : ∑ y ∈ (range nT).erase t, x.rank P y = ∑ y ∈ (range nT).erase t, u.rank P y :=
      Finset.sum_congr rfl fun y hy => by
        obtain ⟨e1, e2⟩ := move_others hm (Finset.ne_of_mem_erase hy)
        unfold LockPool.rank
        rw [e1, e2]
    have e1 := Finset.add_sum_erase (range nT) (fun y => x.rank P y) (Finset.mem_range.2 ht)
    have e2 := Finset.add_sum_erase (range nT) (fun y => u.rank P y) (Finset.mem_range.2 ht)
    rcases h4 with ⟨rfl, h6⟩ | ⟨h6, h7⟩
    · exact ⟨_, j, h1, h5, fun hu => by have := h3 hu; have := h6 hu; omega⟩
    · exact ⟨_, j + 1, .step h1 h6, h5, fun hu => by have := h3 hu; omega⟩
  | cancel _ ih =>
    obtain ⟨v', j, h1, h2, h3⟩ := ih
    exact ⟨_, j, .cancel h1, ⟨h2.pos, rfl, PoolData.same h2.data rfl (fun _ _ => ⟨rfl, rfl⟩) rfl rfl rfl rfl rfl, h2.locals, h2.root⟩, h3⟩

/-- When all threads have ended normally, the state of the atomic model is the same. -/
theorem PoolRel.done {w : LockPool L R} {v : Pool L R} (hI : PoolInv P nT w) (h : PoolRel P nT w v)
    (hd : ∀ t < nT, P.kind (w.locals t) = .done) :
    v.results = w.results ∧ v.sent = w.sent ∧ v.stopped = w.stopped ∧ v.pos = w.pos ∧ ∀ t < nT, v.locals t = w.locals t := by
  have hout : ∀ t, w.places t = .outside ∨ w.places t = .reserving := by
    intro t
    by_cases ht : t < nT
    · by_contra hn
      have : (w.places t).holdsRes = true := by cases e : w.places t <;> simp_all [Place.holdsRes]
      have := hI.update t this
      rw [hd t ht] at this; cases this
    · exact Or.inl (hI.idle t (by omega))
  have ho : w.resOwner = none := by
    by_contra hn
    obtain ⟨u, hu⟩ := Option.ne_none_iff_exists'.1 hn
    have := (hI.res u).1 hu
    rcases hout u with e | e <;> rw [e] at this <;> cases this
  have hb : w.resBad = false := by
    by_contra hb
    obtain ⟨_, t, ht, hk⟩ := hI.resBad (by simpa using hb)
    rw [hd t ht] at hk; cases hk
  have hdata := h.data
  unfold PoolData at hdata
  rw [ho] at hdata
  refine ⟨hdata.1 hb, hdata.2, h.stopped, h.pos, fun t ht => ?_⟩
  have := h.locals t (by rw [hd t ht]; decide)
  rcases hout t with e | e <;> rw [e] at this <;> exact this

/-! ## The main thread -/

theorem move_sent {w w' : LockPool L R} {t : Nat} (hm : P.Move t w w') : w'.sent = w.sent ∨ ∃ m, w'.sent = w.sent ++ [m] := by
  cases hm <;> first
    | exact Or.inl rfl
    | exact Or.inr ⟨_, rfl⟩

theorem prefix_next {calls sent : List Nat} (h : calls <+: sent) {m : Nat} (hm : sent[calls.length]? = some m) : calls ++ [m] <+: sent := by
  obtain ⟨rest, e⟩ := h
  rw [← e, List.getElem?_append_right (le_refl _), Nat.sub_self] at hm
  cases rest with
  | nil => cases hm
  | cons a rest =>
    have : a = m := by simpa using hm
    subst this
    exact ⟨rest, by rw [← e, List.append_assoc]; rfl⟩

theorem Call.Steps.run {l : L} {r : R} {cancelled : Bool} {k : Nat} {x : Call L R}
    (h : Call.Steps P nT cb (Call.init l r cancelled) k x) :
    ∃ j, LockRun P nT (Call.init l r cancelled).threads j x.threads ∧ x.calls <+: x.threads.sent ∧ x.threads.sent.length ≤ j ∧
      k = j + x.calls.length := by
  induction h with
  | refl => exact ⟨0, .refl, List.nil_prefix, by simp [Call.init], rfl⟩
  | step _ hs ih =>
    obtain ⟨j, h1, h2, h3, h4⟩ := ih
    cases hs with
    | thread ht hm =>
      refine ⟨j + 1, .step h1 ht hm, ?_, ?_, by simp only; omega⟩
      · rcases move_sent hm with e | ⟨m, e⟩
        · simp only [e]; exact h2
        · simp only [e]; exact h2.trans (List.prefix_append _ _)
      · rcases move_sent hm with e | ⟨m, e⟩
        · simp only [e]; omega
        · simp only [e, List.length_append, List.length_singleton]; omega
    | receive hf hm hc =>
      rename_i y _ m b
      refine ⟨j, ?_, prefix_next h2 hm, h3, by simp only [List.length_append, List.length_singleton]; omega⟩
      cases b with
      | true => exact .cancel h1
      | false => exact h1
    | raise hf hm hc => exact ⟨j, h1, prefix_next h2 hm, h3, by simp only [List.length_append, List.length_singleton]; omega⟩
  | cancel _ ih =>
    obtain ⟨j, h1, h2, h3, h4⟩ := ih
    exact ⟨j, .cancel h1, h2, h3, h4⟩

/-- A call that cannot go on has returned or panicked, if no computation of a thread is without outcome. -/
theorem Call.Steps.ended (hP : P.Lawful) {l : L} {r : R} {cancelled : Bool} {k : Nat} {x : Call L R}
    (h : Call.Steps P nT cb (Call.init l r cancelled) k x)
    (live : ∀ u < nT, x.threads.places u = .outside → P.kind (x.threads.locals u) = .compute →
      ∃ l', P.compute (x.threads.locals u) x.threads.stopped l')
    (hstuck : ∀ y, ¬ Call.Step P nT cb x y) : Call.Returns P nT x ∨ Call.Panics P nT x := by
  obtain ⟨j, h1, h2, _, _⟩ := h.run
  have hI : PoolInv P nT x.threads := (PoolInv.init l r cancelled).run hP h1
  have hend : ∀ t < nT, P.kind (x.threads.locals t) = .done ∨ P.kind (x.threads.locals t) = .panicked := by
    intro t ht
    by_contra hn
    push Not at hn
    obtain ⟨u, hu, v, hv⟩ := hI.progress live ht hn
    exact hstuck _ (.thread hu hv)
  cases hf : x.failed with
  | true => exact Or.inr ⟨hend, Or.inl hf⟩
  | false =>
    have hlen : x.calls.length = x.threads.sent.length := by
      by_contra hne
      have hlt : x.calls.length < x.threads.sent.length := lt_of_le_of_ne h2.length_le hne
      have hm := List.getElem?_eq_getElem hlt
      cases hc : cb x.calls x.threads.sent[x.calls.length] with
      | none => exact hstuck _ (.raise hf hm hc)
      | some b => exact hstuck _ (.receive hf hm hc)
    by_cases hp : ∃ t < nT, P.kind (x.threads.locals t) = .panicked
    · exact Or.inr ⟨hend, Or.inr ⟨hlen, hp⟩⟩
    · push Not at hp
      exact Or.inl ⟨fun t ht => (hend t ht).resolve_right (hp t ht), hf, hlen⟩

/-- The callback of a call that returns has not panicked. -/
theorem Call.Steps.failed_panics {x : Call L R} (hf : x.failed = true) : ¬ Call.Returns P nT x := fun h => by
  rw [h.2.1] at hf; cases hf

theorem Call.Steps.total {l : L} {r : R} {cancelled : Bool} {k : Nat} {x : Call L R} (hcb : ∀ c m, cb c m ≠ none)
    (h : Call.Steps P nT cb (Call.init l r cancelled) k x) : x.failed = false := by
  induction h with
  | refl => rfl
  | step _ hs ih =>
    cases hs with
    | thread => exact ih
    | receive => exact ih
    | raise _ _ hc => exact absurd hc (hcb _ _)
  | cancel _ ih => exact ih

/-! ## Runs without panics, with locks -/

/-- A state in which no lock is held. -/
def LockPool.free (v : Pool L R) : LockPool L R :=
  { v with places := fun _ => .outside, posOwner := none, resOwner := none, posBad := false, resBad := false }

theorem LockRun.trans {u v w : LockPool L R} {j k : Nat} (h1 : LockRun P nT u j v) (h2 : LockRun P nT v k w) : LockRun P nT u (j + k) w := by
  induction h2 with
  | refl => exact h1
  | step _ ht hm ih => exact .step ih ht hm
  | cancel _ ih => exact .cancel ih

theorem update_outside (t : Nat) (σ : Place) :
    Function.update (Function.update (fun _ : Nat => Place.outside) t σ) t .outside = fun _ => .outside := by
  rw [Function.update_idem]; exact Function.update_eq_self t (fun _ => Place.outside)

theorem free_pool_update {v : Pool L R} {t : Nat} {r : R} (ht : t < nT) (hk : P.kind (v.locals t) = .update)
    (h : P.merge (v.locals t) v.results = some r) :
    ∃ k, LockRun P nT (LockPool.free v) k (LockPool.free { v with
        locals := Function.update v.locals t (P.after (v.locals t)), results := r,
        stopped := P.stop (v.locals t) r || v.stopped, sent := v.sent ++ [P.progress r v.pos] }) := by
  let W : Place → Option Nat → Pool L R → LockPool L R := fun σ o g =>
    { g with places := Function.update (fun _ => Place.outside) t σ, posOwner := o, resOwner := some t, posBad := false, resBad := false }
  have m1 : P.Move t (LockPool.free v) (W .merging none v) := .lockRes rfl hk rfl rfl
  have pl : ∀ σ o g, (W σ o g).places t = σ := fun σ o g => by simp only [W, Function.update_self]
  have up : ∀ σ σ' o g, Function.update (W σ o g).places t σ' = (W σ' o g).places := fun σ σ' o g => Function.update_idem ..
  have m2 : P.Move t (W .merging none v) (W .merged none { v with results := r }) := by
    have := Program.Move.merge (P := P) (t := t) (w := W .merging none v) (pl _ _ _) h
    rw [up] at this; exact this
  have m3 : ∃ k, LockRun P nT (W .merged none { v with results := r }) k (W (.sending (P.progress r v.pos)) none { v with results := r }) := by
    cases hus : P.usesPos with
    | false =>
      have := Program.Move.progress (P := P) (t := t) (w := W .merged none { v with results := r }) (pl _ _ _) hus
      rw [up] at this
      exact ⟨1, .step .refl ht this⟩
    | true =>
      have a1 := Program.Move.lockRead (P := P) (t := t) (w := W .merged none { v with results := r }) (pl _ _ _) hus rfl rfl
      rw [up] at a1
      have a2 := Program.Move.read (P := P) (t := t) (w := W .reading (some t) { v with results := r }) (pl _ _ _)
      rw [up] at a2
      have a3 := Program.Move.unlockRead (P := P) (t := t) (w := W (.computed (P.progress r v.pos)) (some t) { v with results := r })
        (pl _ _ _)
      rw [up] at a3
      exact ⟨3, .step (.step (.step .refl ht a1) ht a2) ht a3⟩
  have m4 := Program.Move.send (P := P) (t := t) (w := W (.sending (P.progress r v.pos)) none { v with results := r }) (pl _ _ _)
  rw [up] at m4
  have m5 := Program.Move.stop (P := P) (t := t) (w := W .sent none { v with results := r, sent := v.sent ++ [P.progress r v.pos] })
    (pl _ _ _)
  rw [up] at m5
  have m6 := Program.Move.leave (P := P) (t := t) (w := W .leaving none { v with
    results := r, sent := v.sent ++ [P.progress r v.pos], stopped := P.stop (v.locals t) r || v.stopped }) (pl _ _ _)
  simp only [W, update_outside] at m6
  obtain ⟨k, m3⟩ := m3
  exact ⟨_, .step (.step (.step (LockRun.trans (.step (.step .refl ht m1) ht m2) m3) ht m4) ht m5) ht m6⟩

theorem free_pool_reserve {v : Pool L R} {t : Nat} {x : L × Nat} (ht : t < nT) (hk : P.kind (v.locals t) = .reserve)
    (h : P.reserve (v.locals t) v.pos = some x) :
    ∃ k, LockRun P nT (LockPool.free v) k (LockPool.free { v with locals := Function.update v.locals t x.1, pos := x.2 }) := by
  have m1 : P.Move t (LockPool.free v) { LockPool.free v with places := Function.update (fun _ => Place.outside) t .reserving, posOwner := some t } :=
    .lockPos rfl hk rfl rfl
  have m2 := Program.Move.reserve (P := P) (t := t)
    (w := { LockPool.free v with places := Function.update (fun _ => Place.outside) t .reserving, posOwner := some t })
    (by simp only [Function.update_self]) h
  simp only [update_outside] at m2
  exact ⟨2, .step (.step .refl ht m1) ht m2⟩

theorem Program.Step.panicked {u v : Pool L R} (h : P.Step nT u v) {t : Nat} (hk : P.kind (u.locals t) = .panicked) :
    P.kind (v.locals t) = .panicked := by
  have ne : ∀ {s : Nat} {k : Kind}, P.kind (u.locals s) = k → k ≠ .panicked → t ≠ s := fun e n e' => n (by rw [← e, ← e']; exact hk)
  cases h with
  | compute _ e => simp only [Function.update_of_ne (ne e (by decide))]; exact hk
  | reserve _ e => simp only [Function.update_of_ne (ne e (by decide))]; exact hk
  | reserveFail _ e => simp only [Function.update_of_ne (ne e (by decide))]; exact hk
  | update _ e => simp only [Function.update_of_ne (ne e (by decide))]; exact hk
  | updateFail _ e => simp only [Function.update_of_ne (ne e (by decide))]; exact hk

/-- Every run of the atomic model without panics is a run with locks. -/
theorem Program.Steps.locks (hP : P.Lawful) {w v : Pool L R} {k : Nat} (h : P.Steps nT w k v)
    (hn : ∀ t < nT, P.kind (v.locals t) ≠ .panicked) : ∃ j, LockRun P nT (LockPool.free w) j (LockPool.free v) := by
  induction h with
  | refl => exact ⟨0, .refl⟩
  | step _ hs ih =>
    obtain ⟨j, hj⟩ := ih fun t ht hk => hn t ht (hs.panicked hk)
    cases hs with
    | compute ht hk hc => exact ⟨j + 1, .step hj ht (.compute rfl hk hc)⟩
    | reserve ht hk hx =>
      obtain ⟨i, hi⟩ := free_pool_reserve ht hk hx
      exact ⟨_, hj.trans hi⟩
    | reserveFail ht hk hx =>
      exact absurd (by simp only [Function.update_self]; exact hP.fail _) (hn _ ht)
    | update ht hk hx =>
      obtain ⟨i, hi⟩ := free_pool_update ht hk hx
      exact ⟨_, hj.trans hi⟩
    | updateFail ht hk hx =>
      exact absurd (by simp only [Function.update_self]; exact hP.fail _) (hn _ ht)
  | cancel _ ih =>
    obtain ⟨j, hj⟩ := ih hn
    exact ⟨j, .cancel hj⟩

/-- The threads can run first … -/
theorem LockRun.call {x : Call L R} {v : LockPool L R} {k : Nat} (h : LockRun P nT x.threads k v) :
    Call.Steps P nT cb x k { x with threads := v } := by
  induction h with
  | refl => exact .refl
  | step _ ht hm ih => exact .step ih (.thread ht hm)
  | cancel _ ih => exact .cancel ih

/-- … and the messages be received afterwards, by a callback that does not panic. -/
theorem Call.Steps.drain (hcb : ∀ c m, cb c m ≠ none) {x₀ : Call L R} : ∀ (n : Nat) {k : Nat} {x : Call L R}, Call.Steps P nT cb x₀ k x →
    x.failed = false → x.calls <+: x.threads.sent → x.threads.sent.length = x.calls.length + n →
    ∃ y b, Call.Steps P nT cb x₀ (k + n) y ∧ y.calls = x.threads.sent ∧ y.failed = false ∧
      y.threads = { x.threads with stopped := b || x.threads.stopped } ∧ ((∀ c m, cb c m = some false) → b = false) := by
  intro n
  induction n with
  | zero =>
    intro k x h hf hp hl
    exact ⟨x, false, h, hp.eq_of_length (by omega), hf, rfl, fun _ => rfl⟩
  | succ n ih =>
    intro k x h hf hp hl
    have hlt : x.calls.length < x.threads.sent.length := by omega
    have hm := List.getElem?_eq_getElem hlt
    cases hc : cb x.calls x.threads.sent[x.calls.length] with
    | none => exact absurd hc (hcb _ _)
    | some b =>
      have h1 := Call.Steps.step h (.receive hf hm hc)
      obtain ⟨y, b', y1, y2, y3, y4, y5⟩ := ih h1 hf (prefix_next hp hm)
        (by simp only [List.length_append, List.length_singleton]; omega)
      refine ⟨y, b' || b, by rw [show k + (n + 1) = k + 1 + n by omega]; exact y1, y2, y3, ?_, fun hh => ?_⟩
      · rw [y4]; simp only [Bool.or_assoc]
      · rw [y5 hh]
        rw [hh] at hc
        simpa using hc.symm

/-! ## The outcomes of a call -/

/-- What a call returns is what a run of the atomic model without panics leaves. -/
theorem Call.Steps.returned (hP : P.Lawful) {l : L} {r : R} {cancelled : Bool} {k : Nat} {x : Call L R}
    (h : Call.Steps P nT cb (Call.init l r cancelled) k x) (hx : Call.Returns P nT x) :
    ∃ v j, P.Steps nT (Call.init l r cancelled).threads.toPool j v ∧ v.results = x.threads.results ∧ v.sent = x.calls ∧
      v.stopped = x.threads.stopped ∧ ∀ t < nT, P.kind (v.locals t) = .done := by
  obtain ⟨j, h1, h2, _, _⟩ := h.run
  obtain ⟨v, i, g1, g2, _⟩ := h1.refines hP (PoolInv.init _ _ _) (PoolRel.init _ _ _)
  obtain ⟨e1, e2, e3, _, e5⟩ := g2.done ((PoolInv.init l r cancelled).run hP h1) hx.1
  exact ⟨v, i, g1, e1, by rw [e2]; exact (h2.eq_of_length hx.2.2).symm, e3, fun t ht => by rw [e5 t ht]; exact hx.1 t ht⟩

/-- If a thread of a call has panicked, then one does so in a run of the atomic model. -/
theorem Call.Steps.root (hP : P.Lawful) {l : L} {r : R} {cancelled : Bool} {k : Nat} {x : Call L R}
    (h : Call.Steps P nT cb (Call.init l r cancelled) k x) (hx : ∃ t < nT, P.kind (x.threads.locals t) = .panicked) :
    ∃ v j, P.Steps nT (Call.init l r cancelled).threads.toPool j v ∧ ∃ t < nT, P.kind (v.locals t) = .panicked := by
  obtain ⟨j, h1, _, _, _⟩ := h.run
  obtain ⟨v, i, g1, g2, _⟩ := h1.refines hP (PoolInv.init _ _ _) (PoolRel.init _ _ _)
  exact ⟨v, i, g1, g2.root hx⟩

/-- Every complete run of the atomic model without panics is a call that returns. -/
theorem Program.Steps.call (hP : P.Lawful) (hcb : ∀ c m, cb c m ≠ none) {l : L} {r : R} {cancelled : Bool} {v : Pool L R} {j : Nat}
    (h : P.Steps nT (Call.init l r cancelled).threads.toPool j v) (hv : ∀ t < nT, P.kind (v.locals t) = .done) :
    ∃ k x, Call.Steps P nT cb (Call.init l r cancelled) k x ∧ Call.Returns P nT x ∧ x.threads.results = v.results ∧ x.calls = v.sent ∧
      ((∀ c m, cb c m = some false) → x.threads.stopped = v.stopped) := by
  obtain ⟨i, hi⟩ := h.locks hP fun t ht => by rw [hv t ht]; decide
  have h1 : Call.Steps P nT cb (Call.init l r cancelled) i { Call.init l r cancelled with threads := LockPool.free v } := LockRun.call hi
  obtain ⟨y, b, y1, y2, y3, y4, y5⟩ := h1.drain hcb v.sent.length rfl List.nil_prefix (by simp [Call.init, LockPool.free])
  refine ⟨_, y, y1, ⟨fun t ht => ?_, y3, ?_⟩, ?_, y2, fun hf => ?_⟩
  · rw [y4]; exact hv t ht
  · rw [y2, y4]
  · rw [y4]; rfl
  · rw [y4, y5 hf]; rfl

/-- The callback of a call that goes on has not panicked. -/
theorem Call.Steps.answers {l : L} {r : R} {cancelled : Bool} {k : Nat} {x : Call L R} (h : Call.Steps P nT cb (Call.init l r cancelled) k x)
    (hf : x.failed = false) {c : List Nat} {m : Nat} (hc : c ++ [m] <+: x.calls) : cb c m ≠ none := by
  induction h with
  | refl => exact absurd (List.prefix_nil.1 hc) (by simp)
  | step _ hs ih =>
    cases hs with
    | thread => exact ih hf hc
    | receive hf' hm hb =>
      rename_i y z _ m' b
      by_cases e : c ++ [m] <+: z.calls
      · exact ih hf' e
      · have hl : (c ++ [m]).length ≤ (z.calls ++ [m']).length := hc.length_le
        have : c ++ [m] = z.calls ++ [m'] := by
          by_contra hne
          apply e
          have hlt : (c ++ [m]).length < (z.calls ++ [m']).length := lt_of_le_of_ne hl fun he => hne (hc.eq_of_length he)
          have h1 : z.calls <+: z.calls ++ [m'] := List.prefix_append _ _
          exact List.prefix_of_prefix_length_le hc h1 (by simp only [List.length_append, List.length_singleton] at hlt ⊢; omega)
        obtain ⟨rfl, h2⟩ := List.append_inj' this rfl
        cases h2
        rw [hb]; simp
    | raise => cases hf
  | cancel _ ih => exact ih hf hc

/-- A thread that has ended has sent a message. -/
theorem Program.Steps.sends (h1 : ∀ l s l', P.kind l = .compute → P.compute l s l' → P.kind l' ≠ .done)
    (h2 : ∀ l p x, P.kind l = .reserve → P.reserve l p = some x → P.kind x.1 ≠ .done) (hP : P.Lawful) {w v : Pool L R} {k : Nat}
    (h : P.Steps nT w k v) (hw : ∀ t, P.kind (w.locals t) ≠ .done) {t : Nat} (ht : P.kind (v.locals t) = .done) : v.sent ≠ [] := by
  have keep : ∀ {u : Pool L R} {s : Nat} {l' : L} {t : Nat}, (∀ t, P.kind (u.locals t) = .done → u.sent ≠ []) → P.kind l' ≠ .done →
      P.kind (Function.update u.locals s l' t) = .done → u.sent ≠ [] := by
    intro u s l' t ih hl ht
    by_cases e : t = s
    · subst e; rw [Function.update_self] at ht; exact absurd ht hl
    · rw [Function.update_of_ne e] at ht; exact ih t ht
  induction h generalizing t with
  | refl => exact absurd ht (hw t)
  | step _ hs ih =>
    rename_i u _ _
    have keep := @keep u
    cases hs with
    | compute _ hk hc => exact keep (fun t => ih) (h1 _ _ _ hk hc) ht
    | reserve _ hk hc => exact keep (fun t => ih) (h2 _ _ _ hk hc) ht
    | reserveFail => exact keep (fun t => ih) (by rw [hP.fail]; decide) ht
    | update => simp
    | updateFail => exact keep (fun t => ih) (by rw [hP.fail]; decide) ht
  | cancel _ ih => exact ih ht

/-- If the number of steps is bounded, a call can be continued until it stops. -/
theorem Call.Steps.stop {x₀ : Call L R} (N : Nat) (hN : ∀ k x, Call.Steps P nT cb x₀ k x → k ≤ N) {k : Nat} {x : Call L R}
    (h : Call.Steps P nT cb x₀ k x) : ∃ j y, Call.Steps P nT cb x₀ j y ∧ (∀ z, ¬ Call.Step P nT cb y z) ∧
      (P.stop = (fun _ _ => false) → (∀ c m, cb c m ≠ some true) → y.threads.stopped = x.threads.stopped) := by
  obtain ⟨n, hn⟩ : ∃ n, N ≤ k + n := ⟨N, by omega⟩
  induction n generalizing k x with
  | zero =>
    refine ⟨k, x, h, fun z hz => ?_, fun _ _ => rfl⟩
    have := hN _ _ (.step h hz)
    omega
  | succ n ih =>
    by_cases hs : ∃ z, Call.Step P nT cb x z
    · obtain ⟨z, hz⟩ := hs
      obtain ⟨j, y, h1, h2, h3⟩ := ih (.step h hz) (by omega)
      refine ⟨j, y, h1, h2, fun hst hcb => (h3 hst hcb).trans ?_⟩
      cases hz with
      | thread ht hm => cases hm <;> first | rfl | (simp only [hst, Bool.false_or])
      | receive hf hm hb =>
        rename_i m b
        cases b with
        | true => exact absurd hb (hcb _ _)
        | false => rfl
      | raise => rfl
    · exact ⟨k, x, h, fun z hz => hs ⟨z, hz⟩, fun _ _ => rfl⟩

/-- After `results` has been poisoned no thread ends normally. -/
theorem LockRun.poisoned (h1 : ∀ l s l', P.kind l = .compute → P.compute l s l' → P.kind l' ≠ .done)
    (h2 : ∀ l p x, P.kind l = .reserve → P.reserve l p = some x → P.kind x.1 ≠ .done) (hP : P.Lawful) {w v : LockPool L R} {k : Nat}
    (hI : PoolInv P nT w) (hb : w.resBad = true) (h : LockRun P nT w k v) :
    v.resBad = true ∧ v.results = w.results ∧ v.sent = w.sent ∧ ∀ t, P.kind (v.locals t) = .done → P.kind (w.locals t) = .done := by
  induction h with
  | refl => exact ⟨hb, rfl, rfl, fun _ h => h⟩
  | step hr ht hm ih =>
    rename_i k u x t
    obtain ⟨g1, g2, g3, g4⟩ := ih
    have hIu := hI.run hP hr
    have ho := (hIu.resBad g1).1
    have no : ∀ {σ : Place}, u.places t = σ → σ.holdsRes = true → False := fun e e' => by
      have := (hIu.res t).2 (by rw [e]; exact e')
      rw [ho] at this; cases this
    have keep : ∀ {l' : L}, P.kind l' ≠ .done → ∀ y, P.kind (Function.update u.locals t l' y) = .done → P.kind (w.locals y) = .done := by
      intro l' hl y hy
      by_cases e : y = t
      · subst e; rw [Function.update_self] at hy; exact absurd hy hl
      · rw [Function.update_of_ne e] at hy; exact g4 y hy
    have fail : P.kind (P.fail (u.locals t)) ≠ .done := by rw [hP.fail]; decide
    cases hm with
    | compute hp hk hc => exact ⟨g1, g2, g3, keep (h1 _ _ _ hk hc)⟩
    | lockPos => exact ⟨g1, g2, g3, g4⟩
    | badPos => exact ⟨by simp [LockPool.panic, g1], g2, g3, keep fail⟩
    | reserve hp hx => exact ⟨g1, g2, g3, keep (h2 _ _ _ (hIu.reserve t hp) hx)⟩
    | reserveFail => exact ⟨by simp [LockPool.panic, g1], g2, g3, keep fail⟩
    | lockRes hp hk ho' hb' => rw [g1] at hb'; cases hb'
    | badRes => exact ⟨by simp [LockPool.panic, g1], g2, g3, keep fail⟩
    | merge hp => exact (no hp rfl).elim
    | mergeFail r hp => exact (no hp rfl).elim
    | lockRead hp => exact (no hp rfl).elim
    | badRead hp => exact (no hp rfl).elim
    | read hp => exact (no hp rfl).elim
    | unlockRead hp => exact (no hp rfl).elim
    | progress hp => exact (no hp rfl).elim
    | send hp => exact (no hp rfl).elim
    | stop hp => exact (no hp rfl).elim
    | leave hp => exact (no hp rfl).elim
  | cancel _ ih => exact ih

/-- The moves of the threads in a part of a call. -/
theorem Call.Steps.moves {x y : Call L R} {k : Nat} (h : Call.Steps P nT cb x k y) : ∃ j, LockRun P nT x.threads j y.threads := by
  induction h with
  | refl => exact ⟨0, .refl⟩
  | step _ hs ih =>
    obtain ⟨j, h1⟩ := ih
    cases hs with
    | thread ht hm => exact ⟨j + 1, .step h1 ht hm⟩
    | @receive m b hf hm hc =>
      cases b with
      | true => exact ⟨j, .cancel h1⟩
      | false => exact ⟨j, h1⟩
    | raise hf hm hc => exact ⟨j, h1⟩
  | cancel _ ih =>
    obtain ⟨j, h1⟩ := ih
    exact ⟨j, .cancel h1⟩

/-- A call that returns has called its callback, which has not panicked. -/
theorem Call.Steps.heard (h1 : ∀ l s l', P.kind l = .compute → P.compute l s l' → P.kind l' ≠ .done)
    (h2 : ∀ l p x, P.kind l = .reserve → P.reserve l p = some x → P.kind x.1 ≠ .done) (hP : P.Lawful) {l : L} {r : R} {cancelled : Bool}
    {k : Nat} {x : Call L R} (h : Call.Steps P nT cb (Call.init l r cancelled) k x) (hx : Call.Returns P nT x) :
    (∀ c m, c ++ [m] <+: x.calls → cb c m ≠ none) ∧ (P.kind l ≠ .done → 0 < nT → x.calls ≠ []) := by
  refine ⟨fun c m => h.answers hx.2.1, fun hl hT => ?_⟩
  obtain ⟨v, j, g1, _, g3, _, g5⟩ := h.returned hP hx
  rw [← g3]
  exact g1.sends h1 h2 hP (fun t => hl) (g5 0 hT)

/-- A thread that panics while it holds the results poisons them. -/
theorem move_poisons (ha : ∀ l, P.kind (P.after l) ≠ .panicked) (hP : P.Lawful) {w v : LockPool L R} {t : Nat} (hI : PoolInv P nT w)
    (hm : P.Move t w v) (ho : w.resOwner = some t) (hv : P.kind (v.locals t) = .panicked) :
    v.resBad = true ∧ v.sent = w.sent ∧ ∀ u, P.kind (v.locals u) = .done → P.kind (w.locals u) = .done := by
  have hh := (hI.res t).1 ho
  have hk := hI.update t hh
  have no : w.places t ≠ .outside := fun e => by rw [e] at hh; cases hh
  have no' : w.places t ≠ .reserving := fun e => by rw [e] at hh; cases hh
  have same : v.locals = w.locals → False := fun e => by rw [e, hk] at hv; cases hv
  have pan : (w.panic P t).resBad = true ∧ (w.panic P t).sent = w.sent ∧
      ∀ u, P.kind ((w.panic P t).locals u) = .done → P.kind (w.locals u) = .done := by
    refine ⟨by simp [LockPool.panic, ho], rfl, fun u hu => ?_⟩
    by_cases e : u = t
    · subst e
      simp only [LockPool.panic, Function.update_self, hP.fail] at hu
      cases hu
    · simp only [LockPool.panic, Function.update_of_ne e] at hu
      exact hu
  cases hm with
  | compute hp => exact absurd hp no
  | lockPos hp => exact absurd hp no
  | badPos hp => exact absurd hp no
  | reserve hp => exact absurd hp no'
  | reserveFail hp => exact absurd hp no'
  | lockRes hp => exact absurd hp no
  | badRes hp => exact absurd hp no
  | merge => exact (same rfl).elim
  | mergeFail => exact pan
  | lockRead => exact (same rfl).elim
  | badRead => exact pan
  | read => exact (same rfl).elim
  | unlockRead => exact (same rfl).elim
  | progress => exact (same rfl).elim
  | send => exact (same rfl).elim
  | stop => exact (same rfl).elim
  | leave => simp only [Function.update_self] at hv; exact absurd hv (ha _)

theorem Call.Steps.poisoned (h1 : ∀ l s l', P.kind l = .compute → P.compute l s l' → P.kind l' ≠ .done)
    (h2 : ∀ l p x, P.kind l = .reserve → P.reserve l p = some x → P.kind x.1 ≠ .done) (ha : ∀ l, P.kind (P.after l) ≠ .panicked)
    (hP : P.Lawful) {l : L} {r : R} {cancelled : Bool} {i j t : Nat} {x y z : Call L R}
    (hx : Call.Steps P nT cb (Call.init l r cancelled) i x) (ht : t < nT) (hm : P.Move t x.threads y.threads)
    (ho : x.threads.resOwner = some t) (hp : P.kind (y.threads.locals t) = .panicked) (hz : Call.Steps P nT cb y j z) :
    z.threads.results = y.threads.results ∧ z.threads.sent = x.threads.sent ∧
      ∀ u, P.kind (z.threads.locals u) = .done → P.kind (x.threads.locals u) = .done := by
  obtain ⟨k, hr⟩ := hx.moves
  have hI : PoolInv P nT x.threads := (PoolInv.init l r cancelled).run hP hr
  obtain ⟨g1, g3, g4⟩ := move_poisons ha hP hI hm ho hp
  obtain ⟨k', hr'⟩ := hz.moves
  obtain ⟨_, f2, f3, f4⟩ := LockRun.poisoned h1 h2 hP (hI.move hP ht hm) g1 hr'
  exact ⟨f2, f3.trans g3, fun u hu => g4 u (f4 u hu)⟩

end Pokers
