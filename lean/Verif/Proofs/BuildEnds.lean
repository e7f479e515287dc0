import Verif.Proofs.Builds
import Verif.Proofs.Progress
/-!
# The calls of both builds end
-/
namespace Pokers
open Finset (range)

section exact
variable {n total nT : Nat} {stop : Nat → Option Nat} {process : Nat → Batch × HandStats → Option (Batch × HandStats)}
  {merge : Batch → HandStats → Results → Option Results} {progress : Nat → Nat}

/-- The position is not beyond the end, and a working thread has a position to work on. -/
structure PoolBounds (total : Nat) (v : Pool Local Results) : Prop where
  le : v.pos ≤ total
  work : ∀ t, (v.locals t).pc = .work → (v.locals t).pos < (v.locals t).stop

def poolMeasure (total nT : Nat) (v : Pool Local Results) : Nat := 4 * (total - v.pos) + ∑ t ∈ range nT, threadMeasure (v.locals t)

theorem sum_measure {f : Nat → Local} {t nT : Nat} (ht : t < nT) (l : Local) :
    ∑ u ∈ range nT, threadMeasure (Function.update f t l u) + threadMeasure (f t) = ∑ u ∈ range nT, threadMeasure (f u) + threadMeasure l := by
  have e1 := Finset.add_sum_erase (range nT) (fun u => threadMeasure (Function.update f t l u)) (Finset.mem_range.2 ht)
  have e2 := Finset.add_sum_erase (range nT) (fun u => threadMeasure (f u)) (Finset.mem_range.2 ht)
  have e : ∑ u ∈ (range nT).erase t, threadMeasure (Function.update f t l u) = ∑ u ∈ (range nT).erase t, threadMeasure (f u) :=
    Finset.sum_congr rfl fun u hu => by rw [Function.update_of_ne (Finset.ne_of_mem_erase hu)]
  simp only [Function.update_self] at e1
  omega

theorem work_update {f : Nat → Local} {t : Nat} {l : Local} (h : ∀ t, (f t).pc = .work → (f t).pos < (f t).stop)
    (hl : l.pc = .work → l.pos < l.stop) (u : Nat) :
    (Function.update f t l u).pc = .work → (Function.update f t l u).pos < (Function.update f t l u).stop := by
  by_cases e : u = t
  · subst e; rw [Function.update_self]; exact hl
  · rw [Function.update_of_ne e]; exact h u

theorem advance_work (l : Local) : l.advance.pc = .work → l.advance.pos < l.advance.stop := by
  unfold Local.advance
  by_cases h : l.pos + 1 ≥ l.stop
  · simp only [h, if_true]; intro h; cases h
  · simp only [h, if_false]; intro _; omega

/-- Each step of a thread lowers the measure. -/
theorem PoolBounds.step (hstop : ∀ pos ≤ total, ∀ e, stop pos = some e → pos ≤ e) {u v : Pool Local Results} (hu : PoolBounds total u)
    (h : (exactProgram n total stop process merge progress).Step nT u v) :
    PoolBounds total v ∧ poolMeasure total nT v + 1 ≤ poolMeasure total nT u := by
  unfold poolMeasure
  cases h with
  | @compute t l ht hk h =>
    have hk' : (u.locals t).pc.kind = .compute := hk
    have hs := sum_measure (f := u.locals) ht l
    have hw := hu.work t
    simp only [exactProgram] at h
    suffices threadMeasure l + 1 ≤ threadMeasure (u.locals t) ∧ (l.pc = .work → l.pos < l.stop) from
      ⟨⟨hu.le, work_update hu.work this.2⟩, by simp only; omega⟩
    generalize u.locals t = m at *
    cases e : m.pc <;> rw [e] at hk' h <;> first | (exfalso; revert hk'; decide) | skip
    · have hm : threadMeasure m = 4 * (m.stop - m.pos) + 3 := by unfold threadMeasure pend; rw [e, card_seg]; rfl
      simp only at h
      have hw := hw e
      cases e2 : process m.pos (m.stats, m.hands) with
      | none =>
        rw [e2] at h; simp only at h; subst h
        exact ⟨by rw [hm]; show 0 + 1 ≤ _; omega, fun h => by cases h⟩
      | some st =>
        rw [e2] at h
        simp only at h
        by_cases h5 : st.1.evalCount ≥ 10000
        · simp only [if_pos h5] at h; subst h
          refine ⟨?_, fun h => by cases h⟩
          have : threadMeasure { m with pc := .flush, stats := st.1, hands := st.2 } = 4 * (m.stop - (m.pos + 1)) + 6 := by
            show 4 * (seg _ _).card + 6 = _; rw [card_seg]
          rw [this]; omega
        · simp only [if_neg h5] at h; subst h
          refine ⟨?_, advance_work _⟩
          have := threadMeasure_advance { m with pc := .work, stats := st.1, hands := st.2 }
          simp only at this
          omega
    · have hm : threadMeasure m = 4 * (m.stop - (m.pos + 1)) + 5 := by unfold threadMeasure pend; rw [e, card_seg]; rfl
      simp only at h
      by_cases h5 : u.stopped = true
      · rw [if_pos h5] at h; subst h
        exact ⟨by rw [hm]; show 1 + 1 ≤ _; omega, fun h => by cases h⟩
      · rw [if_neg h5] at h; subst h
        refine ⟨?_, advance_work _⟩
        have := threadMeasure_advance m
        omega
  | @reserve t x ht hk h =>
    have hk' : (u.locals t).pc.kind = .reserve := hk
    have e : (u.locals t).pc = .reserve := by cases e : (u.locals t).pc <;> rw [e] at hk' <;> first | rfl | (exfalso; revert hk'; decide)
    have hm : threadMeasure (u.locals t) = 4 := by unfold threadMeasure pend; rw [e]; rfl
    have hs := sum_measure (f := u.locals) ht x.1
    have hle := hu.le
    simp only [exactProgram, Option.map_eq_some_iff] at h
    obtain ⟨z, hz, rfl⟩ := h
    have hz := hstop _ hu.le _ hz
    simp only at hs ⊢
    by_cases h5 : u.pos ≥ min total z
    · simp only [h5, if_true] at hs ⊢
      refine ⟨⟨Nat.min_le_left _ _, work_update hu.work fun h => by cases h⟩, ?_⟩
      replace hs : _ + _ = _ + 1 := hs
      omega
    · simp only [h5, if_false] at hs ⊢
      refine ⟨⟨Nat.min_le_left _ _, work_update hu.work fun _ => by simp only; omega⟩, ?_⟩
      replace hs : _ + _ = _ + (4 * (seg u.pos (min total z)).card + 3) := hs
      rw [card_seg] at hs
      have := Nat.min_le_left total z
      omega
  | @reserveFail t ht hk h =>
    have hk' : (u.locals t).pc.kind = .reserve := hk
    have e : (u.locals t).pc = .reserve := by cases e : (u.locals t).pc <;> rw [e] at hk' <;> first | rfl | (exfalso; revert hk'; decide)
    have hm : threadMeasure (u.locals t) = 4 := by unfold threadMeasure pend; rw [e]; rfl
    have hs := sum_measure (f := u.locals) ht { u.locals t with pc := .panicked }
    replace hs : _ + _ = _ + 0 := hs
    refine ⟨⟨hu.le, work_update hu.work fun h => by cases h⟩, ?_⟩
    suffices ∀ A, A + threadMeasure (u.locals t) = ∑ y ∈ range nT, threadMeasure (u.locals y) + 0 →
      4 * (total - u.pos) + A + 1 ≤ 4 * (total - u.pos) + ∑ y ∈ range nT, threadMeasure (u.locals y) from this _ hs
    intro A hA
    omega
  | @update t r ht hk h =>
    have hk' : (u.locals t).pc.kind = .update := hk
    have hs := sum_measure (f := u.locals) ht ((u.locals t).afterUpdate n)
    have hm : threadMeasure ((u.locals t).afterUpdate n) + 1 ≤ threadMeasure (u.locals t) ∧
        (((u.locals t).afterUpdate n).pc = .work → ((u.locals t).afterUpdate n).pos < ((u.locals t).afterUpdate n).stop) := by
      generalize u.locals t = m at *
      unfold Local.afterUpdate
      cases e : m.pc <;> rw [e] at hk' <;> first | (exfalso; revert hk'; decide) | skip
      · refine ⟨?_, fun h => by cases h⟩
        unfold threadMeasure pend; rw [e]; simp only [pcRank]; omega
      · refine ⟨?_, fun h => by cases h⟩
        unfold threadMeasure pend; rw [e]; simp only [pcRank]; omega
    refine ⟨⟨hu.le, work_update hu.work hm.2⟩, ?_⟩
    show _ + ∑ y ∈ range nT, threadMeasure (Function.update u.locals t ((u.locals t).afterUpdate n) y) + 1 ≤ _
    simp only
    omega
  | @updateFail t ht hk h =>
    have hk' : (u.locals t).pc.kind = .update := hk
    have hs := sum_measure (f := u.locals) ht { u.locals t with pc := .panicked }
    replace hs : _ + _ = _ + 0 := hs
    have hm : 1 ≤ threadMeasure (u.locals t) := by
      unfold threadMeasure
      cases e : (u.locals t).pc <;> rw [e] at hk' <;> first | (exfalso; revert hk'; decide) | (simp only [pcRank]; omega)
    refine ⟨⟨hu.le, work_update hu.work fun h => by cases h⟩, ?_⟩
    suffices ∀ A, A + threadMeasure (u.locals t) = ∑ y ∈ range nT, threadMeasure (u.locals y) + 0 →
      4 * (total - u.pos) + A + 1 ≤ 4 * (total - u.pos) + ∑ y ∈ range nT, threadMeasure (u.locals y) from this _ hs
    intro A hA
    omega

theorem PoolBounds.steps (hstop : ∀ pos ≤ total, ∀ e, stop pos = some e → pos ≤ e) {u v : Pool Local Results} (hu : PoolBounds total u) {k : Nat}
    (h : (exactProgram n total stop process merge progress).Steps nT u k v) :
    PoolBounds total v ∧ poolMeasure total nT v + k ≤ poolMeasure total nT u := by
  induction h with
  | refl => exact ⟨hu, le_refl _⟩
  | step _ hs ih =>
    obtain ⟨h1, h2⟩ := ih
    obtain ⟨h3, h4⟩ := h1.step hstop hs
    exact ⟨h3, by omega⟩
  | cancel _ ih => exact ⟨⟨ih.1.le, ih.1.work⟩, ih.2⟩

theorem exactProgram_live {l : Local} (h : (exactProgram n total stop process merge progress).kind l = .compute) (stopped : Bool) :
    ∃ l', (exactProgram n total stop process merge progress).compute l stopped l' := by
  have h : l.pc.kind = .compute := h
  simp only [exactProgram]
  cases e : l.pc <;> rw [e] at h <;> first | (exfalso; revert h; decide) | skip
  · simp only
    cases process l.pos (l.stats, l.hands) with
    | none => exact ⟨_, rfl⟩
    | some st => exact ⟨_, rfl⟩
  · exact ⟨_, rfl⟩

theorem exactProgram_compute {l l' : Local} {b : Bool} (h : (exactProgram n total stop process merge progress).kind l = .compute)
    (hc : (exactProgram n total stop process merge progress).compute l b l') : (exactProgram n total stop process merge progress).kind l' ≠ .done := by
  have h : l.pc.kind = .compute := h
  show l'.pc.kind ≠ .done
  simp only [exactProgram] at hc
  have adv : ∀ l : Local, l.advance.pc.kind ≠ .done := fun l => by unfold Local.advance; simp only; split <;> decide
  cases e : l.pc <;> rw [e] at h hc <;> first | (exfalso; revert h; decide) | skip
  · simp only at hc
    split at hc
    · rw [hc]; exact fun h => nomatch h
    · rw [hc]
      split
      · simp only; decide
      · exact adv _
  · simp only at hc
    rw [hc]
    split
    · simp only; decide
    · exact adv _

theorem exactProgram_reserve {l : Local} {p : Nat} {x : Local × Nat} (h : (exactProgram n total stop process merge progress).reserve l p = some x) :
    (exactProgram n total stop process merge progress).kind x.1 ≠ .done := by
  show x.1.pc.kind ≠ .done
  simp only [exactProgram, Option.map_eq_some_iff] at h
  obtain ⟨e, _, rfl⟩ := h
  simp only
  split <;> decide

/-- The number of steps of a call is bounded, and it can only stop when it has returned or panicked. -/
theorem exact_ends (hstop : ∀ pos ≤ total, ∀ e, stop pos = some e → pos ≤ e) {m : Nat} {r : Results} {cancelled : Bool} {k : Nat} {cb : CallbackP}
    {x : Call Local Results}
    (h : Call.Steps (exactProgram n total stop process merge progress) nT cb (Call.init (Local.init m) r cancelled) k x) :
    k ≤ 64 * total + 72 * nT ∧
    ((∀ y, ¬ Call.Step (exactProgram n total stop process merge progress) nT cb x y) →
      Call.Returns (exactProgram n total stop process merge progress) nT x ∨
      Call.Panics (exactProgram n total stop process merge progress) nT x) := by
  have hP := exactProgram_lawful n total stop process merge progress
  refine ⟨?_, h.ended hP fun u _ _ hk => exactProgram_live hk _⟩
  obtain ⟨j, h1, h2, h3, h4⟩ := h.run
  obtain ⟨v, i, g1, g2, g3⟩ := h1.refines hP (PoolInv.init _ _ _) (PoolRel.init _ _ _)
  obtain ⟨_, g4⟩ := PoolBounds.steps hstop (u := (Call.init (Local.init m) r cancelled).threads.toPool) ⟨Nat.zero_le _, fun t h => by cases h⟩ g1
  have e : poolMeasure total nT (Call.init (Local.init m) r cancelled).threads.toPool = 4 * total + 4 * nT := by
    have : ∀ t, threadMeasure ((Call.init (Local.init m) r cancelled).threads.locals t) = 4 := fun t => rfl
    unfold poolMeasure
    simp only [this, Finset.sum_const, Finset.card_range, smul_eq_mul]
    show 4 * (total - 0) + nT * 4 = _
    omega
  have e2 : ∑ t ∈ range nT, (Call.init (Local.init m) r cancelled).threads.rank (exactProgram n total stop process merge progress) t = 4 * nT := by
    have : ∀ t, (Call.init (Local.init m) r cancelled).threads.rank (exactProgram n total stop process merge progress) t = 4 := fun t => rfl
    simp only [this, Finset.sum_const, Finset.card_range, smul_eq_mul]; omega
  have g3 := g3 rfl
  rw [e2] at g3
  have := h2.length_le
  omega

end exact

/-! ## The random simulation -/

section approx
open CombinedRange Sim Spec
variable {sqrt : ℚ → ℚ} {target : ℚ} {ranges : List (List Combo)} {b d : Nat} {s : Sim} {nT : Nat}

/-- What is needed for the next step of a thread. -/
def WalkFine (b d : Nat) (s : Sim) (l : McLocal) : Prop :=
  (l.pc = .eval ∨ l.pc = .move → ∃ picks, WalkOk s.combinedRanges (b ||| d) l.walk picks) ∧ Outside s.combinedRanges l.walk

theorem WalkFine.step (h : McReady ranges b d s) {l l' : McLocal} {g g' : McShared} {ds rest : Draws} (hl : WalkFine b d s l)
    (hne : l.pc ≠ .eval ∧ l.pc ≠ .flush ∧ l.pc ≠ .final) (hs : mcStep sqrt target s l g ds = .ok (l', g') rest) :
    WalkFine b d s l' ∧ (l'.pc = .panicked → l.pc = .panicked) := by
  have hb : s.boardMask ||| s.deadMask = b ||| d := by rw [h.fields.2.1, h.fields.2.2.1]
  unfold mcStep at hs
  cases e : l.pc <;> rw [e] at hs hne <;> simp only at hs
  case eval => exact absurd rfl hne.1
  case flush => exact absurd rfl hne.2.1
  case final => exact absurd rfl hne.2.2
  case check =>
    cases hs
    refine ⟨⟨fun hp => ?_, hl.2⟩, fun hp => ?_⟩ <;> (simp only at hp; split at hp <;> simp at hp)
  case done => cases hs; exact ⟨hl, fun hp => by rw [e] at hp; exact hp⟩
  case panicked => cases hs; exact ⟨hl, fun _ => rfl⟩
  case start =>
    obtain ⟨h1, h2⟩ := randomizeHoleCards_spec s h.crsOk.1 hl.2 ds
    split at hs
    · rename_i ok w ds' hr
      cases hs
      obtain ⟨h3, h4⟩ := h2 _ _ _ hr
      rw [hb] at h4
      refine ⟨⟨fun hp => h4 ?_, h3⟩, fun hp => ?_⟩
      · cases ok <;> simp at hp ⊢
      · cases ok <;> simp at hp
    · cases hs
    · rename_i hr; exact absurd hr h1
  case restart =>
    obtain ⟨h1, h2⟩ := randomizeHoleCards_spec s h.crsOk.1 hl.2 ds
    split at hs
    · rename_i ok w ds' hr
      cases hs
      obtain ⟨h3, h4⟩ := h2 _ _ _ hr
      rw [hb] at h4
      refine ⟨⟨fun hp => h4 ?_, h3⟩, fun hp => ?_⟩
      · cases ok <;> simp at hp ⊢
      · cases ok <;> simp at hp
    · cases hs
    · rename_i hr; exact absurd hr h1
  case move =>
    obtain ⟨picks, hw⟩ := hl.1 (Or.inr e)
    split at hs
    · rename_i i ds' hi
      obtain ⟨hil, _⟩ := sample_ok hi
      rw [List.getElem?_eq_getElem hil] at hs
      simp only at hs
      obtain ⟨w1, c, e1, _, e3, e4⟩ := redeal_spec h.crsOk.1 hw hil
      rw [e1] at hs
      simp only at hs
      cases hs
      exact ⟨⟨fun _ => ⟨_, e3⟩, e4 hl.2⟩, fun hp => by cases hp⟩
    · cases hs
    · rename_i hi; exact absurd hi (sample_no_panic _ _)

theorem WalkFine.stepC (h : McReady ranges b d s) {l l' : McLocal} {g g' : McShared} {ds rest : Draws} (hl : WalkFine b d s l)
    (hk : l.pc.kind = .compute) (hs : mcStepC sqrt target s l g ds = .ok (l', g') rest) : WalkFine b d s l' := by
  obtain ⟨k1, k2⟩ := mcKind_compute hk
  by_cases e : l.pc = .eval
  · obtain ⟨picks, hw⟩ := hl.1 (Or.inl e)
    unfold mcStepC at hs
    rw [e] at hs
    simp only at hs
    split at hs
    · rename_i l1 ds' hr
      cases hs
      have hwalk : l1.walk = l.walk := by
        unfold evalDealC at hr
        repeat' split at hr
        all_goals first | cases hr; done | (cases hr; rfl)
      exact ⟨fun _ => ⟨picks, by simp only [hwalk]; exact hw⟩, by simp only [hwalk]; exact hl.2⟩
    · cases hs
    · cases hs; exact ⟨fun hp => (by rcases hp with hp | hp <;> cases hp), hl.2⟩
  · refine (hl.step (sqrt := sqrt) (target := target) (g := g) (g' := g') (ds := ds) (rest := rest) h
      ⟨e, fun e => k1 (Or.inl e), fun e => k1 (Or.inr e)⟩ ?_).1
    unfold mcStepC at hs
    cases e' : l.pc <;> rw [e'] at hs e k1 <;> simp only at hs <;> first
      | exact hs | exact absurd rfl e | exact absurd (Or.inl rfl) k1 | exact absurd (Or.inr rfl) k1

theorem WalkFine.stepR (h : McReady ranges b d s) {l l' : McLocal} {g g' : McShared} {ds rest : Draws} (hl : WalkFine b d s l)
    (hk : l.pc.kind = .compute) (hs : mcStepR target s l g ds = .ok (l', g') rest) : WalkFine b d s l' ∧ l'.pc ≠ .panicked := by
  obtain ⟨k1, k2⟩ := mcKind_compute hk
  by_cases e : l.pc = .eval
  · obtain ⟨picks, hw⟩ := hl.1 (Or.inl e)
    obtain ⟨dd, hdd, hat⟩ := h.atDeal hw hl.2
    have hno := (h.evalDeal hdd hat ds).1
    unfold mcStepR at hs
    rw [e] at hs
    simp only at hs
    split at hs
    · rename_i l1 ds' hr
      cases hs
      have hwalk : l1.walk = l.walk := by
        unfold evalDealR at hr
        repeat' split at hr
        all_goals first | cases hr; done | (cases hr; rfl)
      refine ⟨⟨fun _ => ⟨picks, by simp only [hwalk]; exact hw⟩, by simp only [hwalk]; exact hl.2⟩, ?_⟩
      simp only
      split <;> decide
    · cases hs
    · rename_i hr
      exfalso
      apply hno
      unfold evalDealR at hr
      unfold evalDeal
      cases h1 : subC 5 s.fixedBoard.count with
      | none => rfl
      | some k =>
        rw [h1] at hr
        simp only at hr ⊢
        cases h2 : randomizeBoard k (l.walk.used ||| s.deadMask) s.fixedBoard ds with
        | ok board ds' => rw [h2] at hr; cases hr
        | more => rw [h2] at hr; cases hr
        | panic => rfl
  · obtain ⟨g1, g2⟩ := hl.step (sqrt := id) (target := target) (g := g) (g' := g') (ds := ds) (rest := rest) (l' := l') h
      ⟨e, fun e => k1 (Or.inl e), fun e => k1 (Or.inr e)⟩ (by
        unfold mcStepR at hs
        cases e' : l.pc <;> rw [e'] at hs e k1 <;> simp only at hs <;> first
          | exact hs | exact absurd rfl e | exact absurd (Or.inl rfl) k1 | exact absurd (Or.inr rfl) k1)
    exact ⟨g1, fun hp => k2.2 (g2 hp)⟩

/-- For suitable random values every step is possible. -/
theorem WalkFine.live (h : McReady ranges b d s) {l : McLocal} (hl : WalkFine b d s l) (hk : l.pc.kind = .compute) (g : McShared) (hne : l.pc ≠ .eval) :
    ∃ ds l', mcStep sqrt target s l g ds = .ok (l', g) [] := by
  have hs : ∀ cr ∈ s.combinedRanges, cr.size = cr.combos.length ∧ 0 < cr.size := fun cr hcr =>
    ⟨h.crsOk.1.size cr hcr, h.crsOk.2 cr hcr⟩
  unfold mcStep
  cases hc : l.pc <;> rw [hc] at hk <;> first | (exfalso; revert hk; decide) | skip
  case eval => exact absurd hc hne
  case start =>
    obtain ⟨ds, a, h1⟩ := attempts_some s hs 1000
    obtain ⟨w', h1⟩ := h1 l.walk
    simp only
    have h2 : randomizeHoleCards s l.walk ds = .ok (a, w') [] := h1
    exact ⟨ds, _, by rw [h2]⟩
  case restart =>
    obtain ⟨ds, a, h1⟩ := attempts_some s hs 1000
    obtain ⟨w', h1⟩ := h1 l.walk
    simp only
    have h2 : randomizeHoleCards s l.walk ds = .ok (a, w') [] := h1
    exact ⟨ds, _, by rw [h2]⟩
  case check => exact ⟨[], _, rfl⟩
  case move =>
    obtain ⟨picks, hw⟩ := hl.1 (Or.inr hc)
    obtain ⟨w1, c, e1, _⟩ := redeal_spec h.crsOk.1 hw h.nonempty
    simp only
    refine ⟨[0], { l with walk := w1, pc := .eval }, ?_⟩
    have : sample s.combinedRanges.length [0] = .ok 0 [] := if_pos h.nonempty
    rw [this]
    simp only
    rw [List.getElem?_eq_getElem h.nonempty]
    simp only
    rw [e1]

theorem WalkFine.board (h : McReady ranges b d s) {l : McLocal} (hl : WalkFine b d s l) (hk : l.pc = .eval) :
    ∃ k ds board, subC 5 s.fixedBoard.count = some k ∧ randomizeBoard k (l.walk.used ||| s.deadMask) s.fixedBoard ds = .ok board [] := by
  obtain ⟨picks, hw⟩ := hl.1 (Or.inl hk)
  obtain ⟨dd, hdd, hat⟩ := h.atDeal hw hl.2
  obtain ⟨ds, l', h1⟩ := h.evalDeal_some hdd hat
  unfold Pokers.evalDeal at h1
  split at h1
  · cases h1
  · rename_i k hk
    split at h1
    · rename_i board ds' hr
      cases h1
      exact ⟨k, ds, board, hk, hr⟩
    · cases h1
    · cases h1

theorem WalkFine.liveC (h : McReady ranges b d s) {l : McLocal} (hl : WalkFine b d s l) (hk : l.pc.kind = .compute) (g : McShared) :
    ∃ ds l', mcStepC sqrt target s l g ds = .ok (l', g) [] := by
  by_cases e : l.pc = .eval
  · obtain ⟨k, ds, board, h1, h2⟩ := hl.board h e
    refine ⟨ds, ?_⟩
    unfold mcStepC evalDealC
    rw [e]
    simp only [h1, h2]
    cases l.walk.weightC with
    | none => exact ⟨_, rfl⟩
    | some weight =>
      simp only
      cases evaluateHandsC s.nPlayers (s.nPlayers * NUM_HANDS) l.walk.hands weight board l.walk.lookup true (l.stats, l.hands) with
      | none => exact ⟨_, rfl⟩
      | some st => exact ⟨_, rfl⟩
  · obtain ⟨ds, l', h1⟩ := hl.live (sqrt := sqrt) (target := target) h hk g e
    refine ⟨ds, l', ?_⟩
    unfold mcStepC
    cases e' : l.pc <;> rw [e'] at hk e <;> simp only <;> first
      | exact h1 | exact absurd rfl e | (exfalso; revert hk; decide)

theorem WalkFine.liveR (h : McReady ranges b d s) {l : McLocal} (hl : WalkFine b d s l) (hk : l.pc.kind = .compute) (g : McShared) :
    ∃ ds l', mcStepR target s l g ds = .ok (l', g) [] := by
  by_cases e : l.pc = .eval
  · obtain ⟨k, ds, board, h1, h2⟩ := hl.board h e
    refine ⟨ds, ?_⟩
    unfold mcStepR evalDealR
    rw [e]
    simp only [h1, h2]
    exact ⟨_, rfl⟩
  · obtain ⟨ds, l', h1⟩ := hl.live (sqrt := id) (target := target) h hk g e
    refine ⟨ds, l', ?_⟩
    unfold mcStepR
    cases e' : l.pc <;> rw [e'] at hk e <;> simp only <;> first
      | exact h1 | exact absurd rfl e | (exfalso; revert hk; decide)

theorem WalkFine.init (b d : Nat) (s : Sim) (n : Nat) : WalkFine b d s (McLocal.init n) :=
  ⟨fun h => (by rcases h with h | h <;> cases h), fun _ _ => rfl⟩

theorem WalkFine.after {n : Nat} {l : McLocal} (h : WalkFine b d s l) : WalkFine b d s (l.afterUpdate n) := by
  unfold McLocal.afterUpdate
  split <;> exact ⟨fun h => (by rcases h with h | h <;> cases h), h.2⟩

/-- The threads of the random simulation with locks. -/
theorem approx_fine {step : McLocal → McShared → Draws → Out (McLocal × McShared)} {n : Nat}
    {merge : Batch → HandStats → Results → Option Results} {progress : Results → Nat} {below : Results → Bool}
    (hstep : ∀ l l' g g' ds, WalkFine b d s l → l.pc.kind = .compute → step l g ds = .ok (l', g') [] → WalkFine b d s l')
    {w w' : LockPool McLocal Results} {k : Nat} (h0 : ∀ t, WalkFine b d s (w.locals t))
    (h : LockRun (approxProgram n step merge progress below) nT w k w') : ∀ t, WalkFine b d s (w'.locals t) := by
  induction h with
  | refl => exact h0
  | step hr ht hm ih =>
    rename_i k u x t
    intro y
    by_cases e : y = t
    · subst e
      have hl := ih y
      cases hm <;> first
        | exact hl
        | (simp only [LockPool.panic, Function.update_self]
           exact ⟨fun h => (by rcases h with h | h <;> cases h), hl.2⟩)
        | (simp only [Function.update_self]; exact hl.after)
        | skip
      · rename_i hp hk hc
        obtain ⟨g, ds, g', _, hc⟩ := hc
        simp only [Function.update_self]
        exact hstep _ _ _ _ _ hl hk hc
      · rename_i hh; cases hh
    · rw [(move_others hm e).2]; exact ih y
  | cancel _ ih => exact ih

theorem mcStep_not_done {l l' : McLocal} {g g' : McShared} {ds rest : Draws} (hk : l.pc.kind = .compute)
    (hs : mcStep sqrt target s l g ds = .ok (l', g') rest) : l'.pc.kind ≠ .done := by
  unfold mcStep at hs
  cases e : l.pc <;> rw [e] at hs hk <;> first | (exfalso; revert hk; decide) | skip
  all_goals
    simp only at hs
    repeat' split at hs
    all_goals first
      | (cases hs; done)
      | (cases hs; exact fun h => nomatch h)

theorem mcStepC_not_done {l l' : McLocal} {g g' : McShared} {ds rest : Draws} (hk : l.pc.kind = .compute)
    (hs : mcStepC sqrt target s l g ds = .ok (l', g') rest) : l'.pc.kind ≠ .done := by
  unfold mcStepC at hs
  cases e : l.pc <;> rw [e] at hs <;> simp only at hs
  case flush => rw [e] at hk; cases hk
  case final => rw [e] at hk; cases hk
  case eval =>
    split at hs
    · cases hs; simp only; split <;> decide
    · cases hs
    · cases hs; exact fun h => nomatch h
  all_goals exact mcStep_not_done hk hs

theorem mcStepR_not_done {l l' : McLocal} {g g' : McShared} {ds rest : Draws} (hk : l.pc.kind = .compute)
    (hs : mcStepR target s l g ds = .ok (l', g') rest) : l'.pc.kind ≠ .done := by
  unfold mcStepR at hs
  cases e : l.pc <;> rw [e] at hs <;> simp only at hs
  case flush => rw [e] at hk; cases hk
  case final => rw [e] at hk; cases hk
  case eval =>
    split at hs
    · cases hs; simp only; split <;> decide
    · cases hs
    · cases hs; exact fun h => nomatch h
  all_goals exact mcStep_not_done hk hs

end approx

end Pokers
