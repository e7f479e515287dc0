import Verif.Proofs.PoisonRun
/-!
Two programs that compute the same, except that one of them may panic where the other goes on; and two programs that make the same steps
on related values.
-/
namespace Pokers
variable {L R : Type}

/-- `P` computes the same as `Q` or panics. -/
structure Program.Below (P Q : Program L R) : Prop where
  kind : P.kind = Q.kind
  after : P.after = Q.after
  fail : P.fail = Q.fail
  usesPos : P.usesPos = Q.usesPos
  progress : P.progress = Q.progress
  stop : P.stop = Q.stop
  failed : ∀ l, P.kind (P.fail l) = .panicked
  up : ∀ l st l', P.kind l = .compute → P.compute l st l' → Q.compute l st l' ∨ P.kind l' = .panicked
  down : ∀ l st l', P.kind l = .compute → Q.compute l st l' → P.compute l st l' ∨ P.compute l st (P.fail l)
  reserve : ∀ l pos x, P.reserve l pos = some x → Q.reserve l pos = some x
  merge : ∀ l r x, P.merge l r = some x → Q.merge l r = some x

/-- A thread has panicked and does nothing any more. -/
def Gone (P : Program L R) (nT : Nat) (w : LockPool L R) : Prop := ∃ t < nT, P.kind (w.locals t) = .panicked ∧ w.places t = .outside

theorem Program.Below.move {P Q : Program L R} (h : P.Below Q) {t : Nat} {w w' : LockPool L R} (hm : P.Move t w w') :
    Q.Move t w w' ∨ (P.kind (w'.locals t) = .panicked ∧ w'.places t = .outside) := by
  obtain ⟨kind, compute, reserve, merge, progress, usesPos, stop, after, fail⟩ := P
  obtain ⟨kind', compute', reserve', merge', progress', usesPos', stop', after', fail'⟩ := Q
  obtain ⟨h1, h2, h3, h4, h5, h6, hf, hu, hd, hres, hmer⟩ := h
  simp only at h1 h2 h3 h4 h5 h6 hf hu hd hres hmer
  subst h1 h2 h3 h4 h5 h6
  have hpan : ∀ w : LockPool L R, kind ((w.panic ⟨kind, compute, reserve, merge, progress, usesPos, stop, after, fail⟩ t).locals t) = .panicked ∧
      (w.panic ⟨kind, compute, reserve, merge, progress, usesPos, stop, after, fail⟩ t).places t = .outside := fun w => by
    simp only [LockPool.panic, Function.update_self]
    exact ⟨hf _, trivial⟩
  cases hm with
  | compute hp hk h =>
    rcases hu _ _ _ hk h with h | h
    · exact Or.inl (.compute hp hk h)
    · exact Or.inr ⟨by simp only [Function.update_self]; exact h, hp⟩
  | lockPos hp hk ho hb => exact Or.inl (.lockPos hp hk ho hb)
  | badPos => exact Or.inr (hpan _)
  | reserve hp h => exact Or.inl (.reserve hp (hres _ _ _ h))
  | reserveFail => exact Or.inr (hpan _)
  | lockRes hp hk ho hb => exact Or.inl (.lockRes hp hk ho hb)
  | badRes => exact Or.inr (hpan _)
  | merge hp h => exact Or.inl (.merge hp (hmer _ _ _ h))
  | mergeFail => exact Or.inr (hpan _)
  | lockRead hp hu ho hb => exact Or.inl (.lockRead hp hu ho hb)
  | badRead => exact Or.inr (hpan _)
  | read hp => exact Or.inl (.read hp)
  | unlockRead hp => exact Or.inl (.unlockRead hp)
  | progress hp hu => exact Or.inl (.progress hp hu)
  | send hp => exact Or.inl (.send hp)
  | stop hp => exact Or.inl (.stop hp)
  | leave hp => exact Or.inl (.leave hp)

theorem Program.Below.unmove {P Q : Program L R} (h : P.Below Q) {t : Nat} {w w' : LockPool L R} (hm : Q.Move t w w') :
    P.Move t w w' ∨ ∃ w'', P.Move t w w'' ∧ P.kind (w''.locals t) = .panicked := by
  obtain ⟨kind, compute, reserve, merge, progress, usesPos, stop, after, fail⟩ := P
  obtain ⟨kind', compute', reserve', merge', progress', usesPos', stop', after', fail'⟩ := Q
  obtain ⟨h1, h2, h3, h4, h5, h6, hf, hu, hd, hres, hmer⟩ := h
  simp only at h1 h2 h3 h4 h5 h6 hf hu hd hres hmer
  subst h1 h2 h3 h4 h5 h6
  have hpan : ∀ w : LockPool L R, kind ((w.panic ⟨kind, compute, reserve, merge, progress, usesPos, stop, after, fail⟩ t).locals t) = .panicked :=
    fun w => by
      simp only [LockPool.panic, Function.update_self]
      exact hf _
  cases hm with
  | compute hp hk h =>
    rcases hd _ _ _ hk h with h | h
    · exact Or.inl (.compute hp hk h)
    · exact Or.inr ⟨_, .compute hp hk h, by simp only [Function.update_self]; exact hf _⟩
  | lockPos hp hk ho hb => exact Or.inl (.lockPos hp hk ho hb)
  | badPos hp hk ho hb => exact Or.inl (.badPos hp hk ho hb)
  | @reserve x hp h =>
    cases e : reserve (w.locals t) w.pos with
    | none => exact Or.inr ⟨_, .reserveFail hp e, hpan _⟩
    | some y => exact Or.inl (.reserve hp (e.trans ((hres _ _ _ e).symm.trans h)))
  | reserveFail hp h =>
    refine Or.inl (.reserveFail hp ?_)
    cases e : reserve (w.locals t) w.pos with
    | none => exact e
    | some y => cases (hres _ _ _ e).symm.trans h
  | lockRes hp hk ho hb => exact Or.inl (.lockRes hp hk ho hb)
  | badRes hp hk ho hb => exact Or.inl (.badRes hp hk ho hb)
  | merge hp h =>
    cases e : merge (w.locals t) w.results with
    | none => exact Or.inr ⟨_, .mergeFail w.results hp e, hpan _⟩
    | some y => exact Or.inl (.merge hp (e.trans ((hmer _ _ _ e).symm.trans h)))
  | mergeFail r hp h =>
    refine Or.inl (.mergeFail r hp ?_)
    cases e : merge (w.locals t) w.results with
    | none => exact e
    | some y => cases (hmer _ _ _ e).symm.trans h
  | lockRead hp hu ho hb => exact Or.inl (.lockRead hp hu ho hb)
  | badRead hp hu ho hb => exact Or.inl (.badRead hp hu ho hb)
  | read hp => exact Or.inl (.read hp)
  | unlockRead hp => exact Or.inl (.unlockRead hp)
  | progress hp hu => exact Or.inl (.progress hp hu)
  | send hp => exact Or.inl (.send hp)
  | stop hp => exact Or.inl (.stop hp)
  | leave hp => exact Or.inl (.leave hp)

theorem Gone.move {P : Program L R} {nT t : Nat} {w w' : LockPool L R} (hm : P.Move t w w') (h : Gone P nT w) : Gone P nT w' := by
  obtain ⟨u, hu, h1, h2⟩ := h
  by_cases e : u = t
  · subst e
    exfalso
    cases hm with
    | compute hp hk => rw [h1] at hk; cases hk
    | lockPos hp hk => rw [h1] at hk; cases hk
    | badPos hp hk => rw [h1] at hk; cases hk
    | lockRes hp hk => rw [h1] at hk; cases hk
    | badRes hp hk => rw [h1] at hk; cases hk
    | reserve hp | reserveFail hp | merge hp | mergeFail _ hp | lockRead hp | badRead hp | read hp | unlockRead hp | progress hp | send hp
    | stop hp | leave hp => rw [h2] at hp; cases hp
  · obtain ⟨g1, g2⟩ := move_others hm e
    exact ⟨u, hu, by rw [g2]; exact h1, by rw [g1]; exact h2⟩

variable {P Q : Program L R} {nT : Nat} {cb : CallbackP}

/-- A run of the program that may panic is a run of the other, or a thread has panicked. -/
theorem Program.Below.steps (h : P.Below Q) {x y : Call L R} {k : Nat} (hs : Call.Steps P nT cb x k y) :
    Call.Steps Q nT cb x k y ∨ Gone P nT y.threads := by
  induction hs with
  | refl => exact Or.inl .refl
  | step _ hs ih =>
    cases hs with
    | thread ht hm =>
      rcases ih with ih | ih
      · rcases h.move hm with g | g
        · exact Or.inl (.step ih (.thread ht g))
        · exact Or.inr ⟨_, ht, g⟩
      · exact Or.inr (ih.move hm)
    | receive hf hm hb => exact ih.imp (fun ih => .step ih (.receive hf hm hb)) fun ⟨u, g⟩ => ⟨u, g⟩
    | raise hf hm hb => exact ih.imp (fun ih => .step ih (.raise hf hm hb)) fun ⟨u, g⟩ => ⟨u, g⟩
  | cancel _ ih => exact ih.imp .cancel fun ⟨u, g⟩ => ⟨u, g⟩

theorem Program.Below.returns (h : P.Below Q) {x y : Call L R} {k : Nat} (hs : Call.Steps P nT cb x k y) (hr : Call.Returns P nT y) :
    Call.Steps Q nT cb x k y ∧ Call.Returns Q nT y := by
  rcases h.steps hs with g | ⟨u, hu, g, _⟩
  · refine ⟨g, ?_⟩
    unfold Call.Returns
    rw [← h.kind]
    exact hr
  · rw [hr.1 u hu] at g; cases g

/-- Where no thread can panic the runs are the same. -/
theorem Program.Below.back (h : P.Below Q) {x y : Call L R} {k : Nat}
    (hn : ∀ j z, Call.Steps P nT cb x j z → ∀ t < nT, P.kind (z.threads.locals t) ≠ .panicked) (hs : Call.Steps Q nT cb x k y) :
    Call.Steps P nT cb x k y := by
  induction hs with
  | refl => exact .refl
  | step _ hs ih =>
    cases hs with
    | thread ht hm =>
      rcases h.unmove hm with g | ⟨w, g, g'⟩
      · exact .step ih (.thread ht g)
      · exact absurd g' (hn _ _ (.step ih (.thread ht g)) _ ht)
    | receive hf hm hb => exact .step ih (.receive hf hm hb)
    | raise hf hm hb => exact .step ih (.raise hf hm hb)
  | cancel _ ih => exact .cancel ih

theorem Program.Below.same (h : P.Below Q) {x y : Call L R} {k : Nat}
    (hn : ∀ j z, Call.Steps P nT cb x j z → ∀ t < nT, P.kind (z.threads.locals t) ≠ .panicked) :
    Call.Steps P nT cb x k y ↔ Call.Steps Q nT cb x k y := by
  refine ⟨fun hs => ?_, h.back hn⟩
  rcases h.steps hs with g | ⟨u, hu, g, _⟩
  · exact g
  · exact absurd g (hn _ _ hs u hu)

/-- The same for atomic steps: a step of the program that does not panic, or a panic of the other that changes nothing else. -/
theorem Program.Below.unstep (h : P.Below Q) {u v : Pool L R} (hs : Q.Step nT u v) :
    P.Step nT u v ∨ ∃ t < nT, P.Step nT u { u with locals := Function.update u.locals t (P.fail (u.locals t)) } := by
  obtain ⟨kind, compute, reserve, merge, progress, usesPos, stop, after, fail⟩ := P
  obtain ⟨kind', compute', reserve', merge', progress', usesPos', stop', after', fail'⟩ := Q
  obtain ⟨h1, h2, h3, h4, h5, h6, hf, hu, hd, hres, hmer⟩ := h
  simp only at h1 h2 h3 h4 h5 h6 hf hu hd hres hmer
  subst h1 h2 h3 h4 h5 h6
  cases hs with
  | @compute t l ht hk h =>
    rcases hd _ _ _ hk h with h | h
    · exact Or.inl (.compute ht hk h)
    · exact Or.inr ⟨t, ht, .compute ht hk h⟩
  | @reserve t x ht hk h =>
    cases e : reserve (u.locals t) u.pos with
    | none => exact Or.inr ⟨t, ht, .reserveFail ht hk e⟩
    | some y => exact Or.inl (.reserve ht hk (e.trans ((hres _ _ _ e).symm.trans h)))
  | @reserveFail t ht hk h =>
    refine Or.inl (.reserveFail ht hk ?_)
    cases e : reserve (u.locals t) u.pos with
    | none => exact e
    | some y => cases (hres _ _ _ e).symm.trans h
  | @update t r ht hk h =>
    cases e : merge (u.locals t) u.results with
    | none => exact Or.inr ⟨t, ht, .updateFail ht hk e⟩
    | some y => exact Or.inl (.update ht hk (e.trans ((hmer _ _ _ e).symm.trans h)))
  | @updateFail t ht hk h =>
    refine Or.inl (.updateFail ht hk ?_)
    cases e : merge (u.locals t) u.results with
    | none => exact e
    | some y => cases (hmer _ _ _ e).symm.trans h

/-! ## Programs on related values -/

/-- Every step of `P'` is a step of `P` on related values; `P` never sets the token. -/
structure Program.Sim (P P' : Program L R) (RL : L → L → Prop) (RR : R → R → Prop) : Prop where
  kind : ∀ {l l'}, RL l l' → P.kind l = P'.kind l'
  compute : ∀ {l l' st k'}, RL l l' → P'.kind l' = .compute → P'.compute l' st k' → ∃ k, P.compute l st k ∧ RL k k'
  reserve : ∀ {l l' pos}, RL l l' → Option.Rel (fun x x' => RL x.1 x'.1 ∧ x.2 = x'.2) (P.reserve l pos) (P'.reserve l' pos)
  merge : ∀ {l l' r r'}, RL l l' → RR r r' → Option.Rel RR (P.merge l r) (P'.merge l' r')
  after : ∀ {l l'}, RL l l' → RL (P.after l) (P'.after l')
  fail : ∀ {l l'}, RL l l' → RL (P.fail l) (P'.fail l')
  stop : ∀ {l r r'}, RR r r' → P.stop l r = false

/-- Related states; the values that have been sent may differ. -/
structure PoolSim (RL : L → L → Prop) (RR : R → R → Prop) (w w' : Pool L R) : Prop where
  locals : ∀ t, RL (w.locals t) (w'.locals t)
  results : RR w.results w'.results
  pos : w.pos = w'.pos
  stopped : w.stopped = w'.stopped
  sent : w.sent.length = w'.sent.length

variable {P' : Program L R} {RL : L → L → Prop} {RR : R → R → Prop}

theorem update_related {f f' : Nat → L} (h : ∀ t, RL (f t) (f' t)) (t : Nat) {l l' : L} (hl : RL l l') (u : Nat) :
    RL (Function.update f t l u) (Function.update f' t l' u) := by
  by_cases e : u = t
  · subst e; simp only [Function.update_self]; exact hl
  · simp only [Function.update_of_ne e]; exact h u

theorem Program.Sim.step (h : P.Sim P' RL RR) {u u' v' : Pool L R} (hu : PoolSim RL RR u u') (hs : P'.Step nT u' v') :
    ∃ v, P.Steps nT u 1 v ∧ PoolSim RL RR v v' := by
  cases hs with
  | @compute t l' ht hk hc =>
    have hk' := (h.kind (hu.locals t)).trans hk
    rw [← hu.stopped] at hc
    obtain ⟨l, g1, g2⟩ := h.compute (hu.locals t) hk hc
    exact ⟨_, .step .refl (.compute ht hk' g1), update_related hu.locals t g2, hu.results, hu.pos, hu.stopped, hu.sent⟩
  | @reserve t x' ht hk hc =>
    have hk' := (h.kind (hu.locals t)).trans hk
    have hr := h.reserve (pos := u.pos) (hu.locals t)
    rw [hu.pos, hc, ← hu.pos] at hr
    cases e : P.reserve (u.locals t) u.pos with
    | none => rw [e] at hr; cases hr
    | some x =>
      rw [e] at hr
      cases hr with
      | some hr => exact ⟨_, .step .refl (.reserve ht hk' e), update_related hu.locals t hr.1, hu.results, hr.2, hu.stopped, hu.sent⟩
  | @reserveFail t ht hk hc =>
    have hk' := (h.kind (hu.locals t)).trans hk
    have hr := h.reserve (pos := u.pos) (hu.locals t)
    rw [hu.pos, hc, ← hu.pos] at hr
    cases e : P.reserve (u.locals t) u.pos with
    | some x => rw [e] at hr; cases hr
    | none => exact ⟨_, .step .refl (.reserveFail ht hk' e), update_related hu.locals t (h.fail (hu.locals t)), hu.results, hu.pos, hu.stopped, hu.sent⟩
  | @update t r' ht hk hc =>
    have hk' := (h.kind (hu.locals t)).trans hk
    have hr := h.merge (hu.locals t) hu.results
    rw [hc] at hr
    cases e : P.merge (u.locals t) u.results with
    | none => rw [e] at hr; cases hr
    | some r =>
      rw [e] at hr
      cases hr with
      | some hr =>
        have hst := h.stop (l := u.locals t) hr
        have step := Program.Steps.step (.refl (P := P) (nThreads := nT)) (.update ht hk' e)
        rw [hst, Bool.false_or] at step
        have hsent : (u.sent ++ [P.progress r u.pos]).length = (u'.sent ++ [P'.progress r' u'.pos]).length := by
          simp only [List.length_append, List.length_singleton, hu.sent]
        cases hst' : P'.stop (u'.locals t) r' with
        | false => exact ⟨_, step, update_related hu.locals t (h.after (hu.locals t)), hr, hu.pos, by rw [Bool.false_or]; exact hu.stopped, hsent⟩
        | true => exact ⟨_, .cancel step, update_related hu.locals t (h.after (hu.locals t)), hr, hu.pos, rfl, hsent⟩
  | @updateFail t ht hk hc =>
    have hk' := (h.kind (hu.locals t)).trans hk
    have hr := h.merge (hu.locals t) hu.results
    rw [hc] at hr
    cases e : P.merge (u.locals t) u.results with
    | some r => rw [e] at hr; cases hr
    | none => exact ⟨_, .step .refl (.updateFail ht hk' e), update_related hu.locals t (h.fail (hu.locals t)), hu.results, hu.pos, hu.stopped, hu.sent⟩

theorem Program.Steps.trans {u v w : Pool L R} {j k : Nat} (h1 : P.Steps nT u j v) (h2 : P.Steps nT v k w) : P.Steps nT u (j + k) w := by
  induction h2 with
  | refl => exact h1
  | step _ h ih => exact .step ih h
  | cancel _ ih => exact .cancel ih

theorem Program.Sim.steps (h : P.Sim P' RL RR) {u u' v' : Pool L R} {k : Nat} (hu : PoolSim RL RR u u') (hs : P'.Steps nT u' k v') :
    ∃ v, P.Steps nT u k v ∧ PoolSim RL RR v v' := by
  induction hs with
  | refl => exact ⟨u, .refl, hu⟩
  | step _ hs ih =>
    obtain ⟨v, h1, h2⟩ := ih
    obtain ⟨w, h3, h4⟩ := h.step h2 hs
    exact ⟨w, h1.trans h3, h4⟩
  | cancel _ ih =>
    obtain ⟨v, h1, h2⟩ := ih
    exact ⟨_, .cancel h1, h2.locals, h2.results, h2.pos, rfl, h2.sent⟩

end Pokers
