import Verif.Proofs.PoisonRun
/-!
What happens after a thread has panicked while it held `enum_pos`.
-/
namespace Pokers

variable {L R : Type} {P : Program L R} {nT : Nat} {cb : CallbackP}

/-- `v` comes after `w`, in which `enum_pos` is poisoned and nobody holds it. -/
structure PosDead (P : Program L R) (w v : LockPool L R) : Prop where
  bad : v.posBad = true
  free : v.posOwner = none
  pos : v.pos = w.pos
  sent : (v.sent = w.sent ∧ ∀ t p, v.places t = .sending p → w.places t = .sending p) ∨
    (v.sent.length = w.sent.length + 1 ∧ (∀ t p, v.places t ≠ .sending p) ∧ ∃ t p, w.places t = .sending p)
  ended : ∀ u, w.resOwner ≠ some u → P.kind (w.locals u) ≠ .done →
    P.kind (v.locals u) ≠ .done ∧ (v.places u = .outside ∨ v.places u = .merging ∨ v.places u = .merged)

theorem PosDead.refl {w : LockPool L R} (hI : PoolInv P nT w) (hb : w.posBad = true) (ho : w.posOwner = none) : PosDead P w w := by
  refine ⟨hb, ho, rfl, .inl ⟨rfl, fun _ _ h => h⟩, fun u hu hk => ⟨hk, .inl ?_⟩⟩
  have h1 : ¬ (w.places u).holdsRes = true := fun h => hu ((hI.res u).2 h)
  have h2 : ¬ (w.places u).holdsPos = true := fun h => by
    have := (hI.pos u).2 h
    rw [ho] at this
    cases this
  cases hp : w.places u <;> simp [hp, Place.holdsRes, Place.holdsPos] at h1 h2 ⊢

/-- A step that changes one place and possibly the local variables of its thread, and no message. -/
theorem PosDead.goes {w u v : LockPool L R} (h : PosDead P w u) {t : Nat} {q : Place} (e1 : v.posBad = u.posBad) (e2 : v.posOwner = u.posOwner)
    (e3 : v.pos = u.pos) (e4 : v.sent = u.sent) (hpl : v.places = Function.update u.places t q) (hq : ∀ p, q ≠ .sending p)
    (hlo : ∀ x, x ≠ t → v.locals x = u.locals x)
    (hend : (u.places t = .outside ∨ u.places t = .merging ∨ u.places t = .merged) → P.kind (u.locals t) ≠ .done →
      P.kind (v.locals t) ≠ .done ∧ (q = .outside ∨ q = .merging ∨ q = .merged)) : PosDead P w v := by
  have hs : ∀ x p, v.places x = .sending p → u.places x = .sending p := by
    intro x p hx
    rw [hpl] at hx
    by_cases e : x = t
    · subst e; rw [Function.update_self] at hx; exact absurd hx (hq p)
    · rwa [Function.update_of_ne e] at hx
  refine ⟨e1.trans h.bad, e2.trans h.free, e3.trans h.pos, ?_, ?_⟩
  · rcases h.sent with ⟨s1, s2⟩ | ⟨s1, s2⟩
    · exact .inl ⟨e4.trans s1, fun x p hx => s2 x p (hs x p hx)⟩
    · exact .inr ⟨by rw [e4]; exact s1, fun x p hx => s2.1 x p (hs x p hx), s2.2⟩
  · intro x hx hk
    obtain ⟨k1, k2⟩ := h.ended x hx hk
    by_cases e : x = t
    · subst e
      obtain ⟨g1, g2⟩ := hend k2 k1
      refine ⟨g1, ?_⟩
      rw [hpl, Function.update_self]
      exact g2
    · rw [hlo x e, hpl, Function.update_of_ne e]
      exact ⟨k1, k2⟩

theorem PosDead.move (h1 : ∀ l s l', P.kind l = .compute → P.compute l s l' → P.kind l' ≠ .done) (hP : P.Lawful) (hu : P.usesPos = true)
    {w u v : LockPool L R} (h : PosDead P w u) (hI : PoolInv P nT u) {t : Nat} (hm : P.Move t u v) : PosDead P w v := by
  have hfree : ∀ x, ¬ (u.places x).holdsPos = true := fun x hx => by
    have := (hI.pos x).2 hx
    rw [h.free] at this
    cases this
  have pan : ∀ r : R, PosDead P w ({ u with results := r }.panic P t) := by
    intro r
    refine h.goes (t := t) (q := .outside) ?_ ?_ rfl rfl rfl (fun _ => by simp) (fun x e => ?_) (fun _ _ => ⟨?_, .inl rfl⟩)
    · simp only [LockPool.panic, h.bad, Bool.true_or]
    · simp only [LockPool.panic, h.free, ite_self]
    · simp only [LockPool.panic, Function.update_of_ne e]
    · simp only [LockPool.panic, Function.update_self, hP.fail]
      decide
  cases hm with
  | compute hp hk hc =>
    refine h.goes (t := t) (q := .outside) rfl rfl rfl rfl ?_ (fun _ => by simp) (fun x e => ?_) (fun _ _ => ⟨?_, .inl rfl⟩)
    · rw [← hp]; exact (Function.update_eq_self ..).symm
    · simp only [Function.update_of_ne e]
    · simp only [Function.update_self]; exact h1 _ _ _ hk hc
  | lockPos hp hk ho hb => rw [h.bad] at hb; cases hb
  | badPos => exact pan u.results
  | reserve hp => exact absurd (by rw [hp]; rfl) (hfree t)
  | reserveFail hp => exact absurd (by rw [hp]; rfl) (hfree t)
  | lockRes hp =>
    exact h.goes (t := t) (q := .merging) rfl rfl rfl rfl rfl (fun _ => by simp) (fun _ _ => rfl) (fun _ k => ⟨k, .inr (.inl rfl)⟩)
  | badRes => exact pan u.results
  | merge hp =>
    exact h.goes (t := t) (q := .merged) rfl rfl rfl rfl rfl (fun _ => by simp) (fun _ _ => rfl) (fun _ k => ⟨k, .inr (.inr rfl)⟩)
  | mergeFail r => exact pan r
  | lockRead hp hu ho hb => rw [h.bad] at hb; cases hb
  | badRead => exact pan u.results
  | read hp => exact absurd (by rw [hp]; rfl) (hfree t)
  | unlockRead hp => exact absurd (by rw [hp]; rfl) (hfree t)
  | progress hp hn => rw [hu] at hn; cases hn
  | @send p hp =>
    have hown : u.resOwner = some t := (hI.res t).2 (by rw [hp]; rfl)
    have hone : ∀ x q, u.places x = .sending q → x = t := by
      intro x q hx
      have := (hI.res x).2 (by rw [hx]; rfl)
      rw [hown] at this
      exact (Option.some.inj this).symm
    refine ⟨h.bad, h.free, h.pos, ?_, ?_⟩
    · rcases h.sent with ⟨s1, s2⟩ | ⟨_, s2, _⟩
      · refine .inr ⟨by simp [s1], fun x q hx => ?_, t, p, s2 t p hp⟩
        by_cases e : x = t
        · subst e; simp at hx
        · simp only [Function.update_of_ne e] at hx
          exact e (hone x q hx)
      · exact absurd hp (s2 t p)
    · intro x hx hk
      obtain ⟨k1, k2⟩ := h.ended x hx hk
      by_cases e : x = t
      · subst e; rw [hp] at k2; simp at k2
      · simp only [Function.update_of_ne e]; exact ⟨k1, k2⟩
  | stop hp =>
    exact h.goes (t := t) (q := .leaving) rfl rfl rfl rfl rfl (fun _ => by simp) (fun _ _ => rfl) (fun k => by rw [hp] at k; simp at k)
  | leave hp =>
    exact h.goes (t := t) (q := .outside) rfl rfl rfl rfl rfl (fun _ => by simp) (fun x e => by simp only [Function.update_of_ne e])
      (fun k => by rw [hp] at k; simp at k)

theorem LockRun.posDead (h1 : ∀ l s l', P.kind l = .compute → P.compute l s l' → P.kind l' ≠ .done) (hP : P.Lawful) (hu : P.usesPos = true)
    {w v : LockPool L R} (hI : PoolInv P nT w) (hb : w.posBad = true) (ho : w.posOwner = none) {k : Nat} (h : LockRun P nT w k v) :
    PosDead P w v := by
  have : PosDead P w v ∧ PoolInv P nT v := by
    induction h with
    | refl => exact ⟨.refl hI hb ho, hI⟩
    | step _ ht hm ih => exact ⟨ih.1.move h1 hP hu ih.2 hm, ih.2.move hP ht hm⟩
    | cancel _ ih =>
      exact ⟨⟨ih.1.bad, ih.1.free, ih.1.pos, ih.1.sent, ih.1.ended⟩,
        ⟨ih.2.pos, ih.2.res, ih.2.reserve, ih.2.update, ih.2.uses, ih.2.idle, ih.2.posBad, ih.2.resBad⟩⟩
  exact this.1

/-- A reservation that fails poisons `enum_pos`: it keeps its value, at most one more message is sent, and at most one more thread ends
without a panic, the one that was holding the results. -/
theorem Call.Steps.poisonedPos (h1 : ∀ l s l', P.kind l = .compute → P.compute l s l' → P.kind l' ≠ .done)
    (hP : P.Lawful) (hu : P.usesPos = true) {l : L} {r : R} {cancelled : Bool} {i j t : Nat} {x y z : Call L R}
    (hx : Call.Steps P nT cb (Call.init l r cancelled) i x) (ht : t < nT) (hm : P.Move t x.threads y.threads)
    (hres : x.threads.places t = .reserving) (hnone : P.reserve (x.threads.locals t) x.threads.pos = none)
    (hz : Call.Steps P nT cb y j z) :
    z.threads.pos = x.threads.pos ∧ z.threads.posBad = true ∧ z.threads.sent.length ≤ x.threads.sent.length + 1 ∧
      ((∀ u p, x.threads.places u ≠ .sending p) → z.threads.sent = x.threads.sent) ∧
      ∀ u, P.kind (z.threads.locals u) = .done → P.kind (x.threads.locals u) = .done ∨ x.threads.resOwner = some u := by
  obtain ⟨k, hr⟩ := hx.moves
  have hI : PoolInv P nT x.threads := (PoolInv.init l r cancelled).run hP hr
  have hI' := hI.move hP ht hm
  have ho : x.threads.posOwner = some t := (hI.pos t).2 (by rw [hres]; rfl)
  have hn : x.threads.resOwner ≠ some t := fun h => by
    have := (hI.res t).1 h
    rw [hres] at this
    cases this
  have hy : y.threads = x.threads.panic P t := by
    generalize y.threads = v at hm
    cases hm <;> simp_all
  obtain ⟨k', hr'⟩ := hz.moves
  have hd := LockRun.posDead h1 hP hu hI' (by rw [hy]; simp [LockPool.panic, ho]) (by rw [hy]; simp [LockPool.panic, ho]) hr'
  refine ⟨hd.pos.trans (by rw [hy]; rfl), hd.bad, ?_, fun hno => ?_, fun u hk => ?_⟩
  · have hs : y.threads.sent = x.threads.sent := by rw [hy]; rfl
    rcases hd.sent with ⟨s, _⟩ | ⟨s, _⟩
    · rw [s, hs]; omega
    · rw [s, hs]
  · rcases hd.sent with ⟨s, _⟩ | ⟨_, _, u, p, hs⟩
    · rw [s, hy]; rfl
    · rw [hy] at hs
      by_cases e : u = t
      · subst e; simp [LockPool.panic] at hs
      · simp only [LockPool.panic, Function.update_of_ne e] at hs
        exact absurd hs (hno u p)
  · by_contra hne
    rw [not_or] at hne
    refine (hd.ended u ?_ ?_).1 hk
    · rw [hy]
      simp only [LockPool.panic, if_neg hn]
      exact hne.2
    · rw [hy]
      by_cases e : u = t
      · subst e
        simp only [LockPool.panic, Function.update_self, hP.fail]
        decide
      · simp only [LockPool.panic, Function.update_of_ne e]
        exact hne.1

end Pokers
