import Verif.Proofs.McDeal
import Verif.Proofs.McRun
import Verif.Proofs.Describe
/-!
# The random simulation can always continue, and complete runs exist
-/
namespace Pokers
open CombinedRange Sim Spec

/-! ## Draws that complete the board -/

theorem boardDraw_self : ∀ (T : List Nat) (used : Nat), T.Nodup → (∀ c ∈ T, c < 52 ∧ used.testBit c = false) →
    boardDraw T.length used T = some T := by
  intro T
  induction T with
  | nil => intros; rfl
  | cons c T ih =>
    intro used hn hT
    rw [List.nodup_cons] at hn
    obtain ⟨h1, h2⟩ := hT c (by simp)
    show (if c < 52 then if used.testBit c = false then (boardDraw T.length (used ||| (1 <<< c)) T).map (c :: ·)
      else boardDraw (T.length + 1) used T else none) = _
    rw [if_pos h1, if_pos h2, ih _ hn.2 (fun x hx => ⟨(hT x (by simp [hx])).1, ?_⟩)]
    · rfl
    · rw [Nat.testBit_or, (hT x (by simp [hx])).2, testBit_one_shl, Bool.false_or]
      simp only [decide_eq_false_iff_not]
      intro h
      exact hn.1 (h ▸ hx)

theorem filter_not_mem_length (xs : List Nat) : 52 ≤ ((List.range 52).filter fun c => decide (c ∉ xs)).length + xs.length := by
  have h1 : ((List.range 52).filter fun c => decide (c ∉ xs)).length + ((List.range 52).filter fun c => decide (c ∈ xs)).length = 52 := by
    have := List.length_eq_length_filter_add (l := List.range 52) (fun c => decide (c ∉ xs))
    rw [List.length_range] at this
    have e : (List.range 52).filter (fun c => !decide (c ∉ xs)) = (List.range 52).filter fun c => decide (c ∈ xs) := by
      apply List.filter_congr
      intro c _
      simp
    rw [e] at this
    exact this.symm
  have h2 : ((List.range 52).filter fun c => decide (c ∈ xs)).length ≤ xs.length := by
    apply List.Subperm.length_le
    apply List.subperm_of_subset (List.nodup_range.filter _)
    intro c hc
    simpa using (List.mem_filter.1 hc).2
  omega

section
variable {sqrt : ℚ → ℚ} {target : ℚ} {ranges : List (List Combo)} {b d : Nat} {s : Sim} {r0 : Results} {nT : Nat}

/-- There are always enough free cards to complete the board. -/
theorem McReady.free (h : McReady ranges b d s) {dd : List WHand} (hdd : dd ∈ deals (specRanges ranges) (maskCards b ++ maskCards d)) :
    ∃ T : List Nat, T.length = 5 - (maskCards b).length ∧ T.Nodup ∧ ∀ c ∈ T, c < 52 ∧ c ∉ maskCards b ++ maskCards d ++ dealt dd := by
  obtain ⟨_, _, _, _, _, _, _, _, h7, _⟩ := h.fields
  obtain ⟨hl, _⟩ := deals_wf h.wf hdd
  have hdl : (dealt dd).length = 2 * dd.length := by
    unfold dealt
    rw [List.length_flatMap]
    have : ∀ x : WHand, (cardsOf x).length = 2 := fun _ => rfl
    simp only [this, List.map_const', List.sum_replicate, smul_eq_mul]
    ring
  have hb := maskCards_length_le d
  have hf := filter_not_mem_length (maskCards b ++ maskCards d ++ dealt dd)
  rw [List.length_append, List.length_append, hdl, hl] at hf
  refine ⟨((List.range 52).filter fun c => decide (c ∉ maskCards b ++ maskCards d ++ dealt dd)).take (5 - (maskCards b).length), ?_, ?_, ?_⟩
  · rw [List.length_take]; omega
  · exact (List.nodup_range.filter _).sublist (List.take_sublist _ _)
  · intro c hc
    have := List.mem_filter.1 (List.mem_of_mem_take hc)
    exact ⟨List.mem_range.1 this.1, by simpa using this.2⟩

theorem used_iff (h : McReady ranges b d s) {w : Walk} {dd : List WHand} (hat : AtDeal (maskCards b) (maskCards d) w dd) {c : Nat} (hc : c < 52) :
    (w.used ||| s.deadMask).testBit c = true ↔ c ∈ maskCards b ++ maskCards d ++ dealt dd := by
  rw [h.fields.2.2.1, Nat.testBit_or, Bool.or_eq_true, hat.used c hc, ← mem_maskCards hc]
  simp only [List.mem_append]
  tauto

/-- Some draws lead to an evaluation. -/
theorem McReady.evalDeal_some (h : McReady ranges b d s) {l : McLocal} {dd : List WHand}
    (hdd : dd ∈ deals (specRanges ranges) (maskCards b ++ maskCards d)) (hat : AtDeal (maskCards b) (maskCards d) l.walk dd) :
    ∃ ds l', Pokers.evalDeal s l ds = .ok l' [] := by
  obtain ⟨h1, h2, h3, h4, _, _, _, h5, _, h6⟩ := h.fields
  obtain ⟨T, t1, t2, t3⟩ := h.free hdd
  have hcount : s.fixedBoard.count = (maskCards b).length := by rw [h4, ← fixedBoard_eq, fixedBoard_count h5]
  have hsub : subC 5 s.fixedBoard.count = some (5 - (maskCards b).length) := by
    unfold subC; rw [hcount, if_pos h6]
  have hu : ∀ c ∈ T, c < 52 ∧ (l.walk.used ||| s.deadMask).testBit c = false := fun c hc => by
    refine ⟨(t3 c hc).1, ?_⟩
    rw [← Bool.not_eq_true, used_iff h hat (t3 c hc).1]
    exact (t3 c hc).2
  have hr := (randomizeBoard_draw T (5 - (maskCards b).length) (l.walk.used ||| s.deadMask) s.fixedBoard _).2
    ⟨T, by rw [← t1]; exact boardDraw_self T _ t2 hu, rfl⟩
  unfold Pokers.evalDeal
  rw [hsub]
  simp only
  exact ⟨T, _, by rw [hr]⟩

/-! ## Draws that end the search for a deal -/

theorem tryDeal_some : ∀ (crs : List CombinedRange) (u : Nat), (∀ cr ∈ crs, cr.size = cr.combos.length ∧ 0 < cr.size) →
    ∃ ds a, tryDeal crs u ds = .ok a [] := by
  intro crs
  induction crs with
  | nil => intro u _; exact ⟨[], true, rfl⟩
  | cons cr crs ih =>
    intro u h
    obtain ⟨h1, h2⟩ := h cr (by simp)
    have h0 : 0 < cr.combos.length := by omega
    by_cases hu : u &&& cr.combos[0].mask ≠ 0
    · refine ⟨[0], false, ?_⟩
      rw [tryDeal_cons, if_pos h2, List.getElem?_eq_getElem h0]
      simp only
      rw [if_pos hu]
    · obtain ⟨ds, a, h3⟩ := ih (u ||| cr.combos[0].mask) (fun x hx => h x (by simp [hx]))
      refine ⟨0 :: ds, a, ?_⟩
      rw [tryDeal_cons, if_pos h2, List.getElem?_eq_getElem h0]
      simp only
      rw [if_neg hu, h3]

theorem attempts_some (s : Sim) (hs : ∀ cr ∈ s.combinedRanges, cr.size = cr.combos.length ∧ 0 < cr.size) : ∀ (k : Nat),
    ∃ ds a, ∀ w, ∃ w', attempts s k w ds = .ok (a, w') [] := by
  intro k
  induction k with
  | zero => exact ⟨[], _, fun w => ⟨_, rfl⟩⟩
  | succ k ih =>
    have e : ∀ w ds, attempts s (k + 1) w ds = match dealLoop s.combinedRanges 0 { w with used := s.boardMask ||| s.deadMask } ds with
      | .ok (true, w) ds => .ok (true, w) ds
      | .ok (false, w) ds => attempts s k w ds
      | .more => .more
      | .panic => .panic := fun _ _ => rfl
    have hdl := fun (w : Walk) ds => dealLoop_try s.combinedRanges 0 { w with used := s.boardMask ||| s.deadMask } ds
    obtain ⟨ds, a, h1⟩ := tryDeal_some s.combinedRanges (s.boardMask ||| s.deadMask) hs
    cases a with
    | true =>
      refine ⟨ds, true, fun w => ?_⟩
      obtain ⟨w', h2, _⟩ := (hdl w ds).1 _ _ h1
      exact ⟨w', by rw [e, h2]⟩
    | false =>
      obtain ⟨ds2, a2, h3⟩ := ih
      obtain ⟨x, hx, hx2⟩ := tryDeal_false _ _ _ _ h1
      refine ⟨x ++ ds2, a2, fun w => ?_⟩
      obtain ⟨w2, q1, _⟩ := (hdl w (x ++ ds2)).1 _ _ (hx2 ds2)
      rw [e, q1]
      exact h3 w2

/-- The indexes of a legal deal make the first attempt succeed. -/
theorem attempts_legal (s : Sim) (k : Nat) (w : Walk) {x : List Nat} (hx : LegalIdx s.combinedRanges (s.boardMask ||| s.deadMask) x) :
    ∃ w', attempts s (k + 1) w x = .ok (true, w') [] ∧ Points w' x := by
  have e : attempts s (k + 1) w x = match dealLoop s.combinedRanges 0 { w with used := s.boardMask ||| s.deadMask } x with
      | .ok (true, w) ds => .ok (true, w) ds
      | .ok (false, w) ds => attempts s k w ds
      | .more => .more
      | .panic => .panic := rfl
  have ht := (tryDeal_true s.combinedRanges (s.boardMask ||| s.deadMask) x []).2 ⟨x, by simp, hx⟩
  obtain ⟨w2, q1, _, q3⟩ := (dealLoop_try s.combinedRanges 0 { w with used := s.boardMask ||| s.deadMask } x).1 _ _ ht
  refine ⟨w2, by rw [e, q1], fun j hj => ?_⟩
  obtain ⟨hl, hj'⟩ := q3 rfl j (by rw [← hx.length]; exact hj)
  rw [Nat.zero_add] at hj'
  exact hj'

theorem legal_of_deals : ∀ (crs : List CombinedRange) (u : Nat) (ph : Nat → Hole), (∀ cr ∈ crs, cr.size = cr.combos.length) →
    (∃ x, x ∈ dealsOf crs u ph) → ∃ x, LegalIdx crs u x := by
  intro crs
  induction crs with
  | nil => intro u ph _ _; exact ⟨[], trivial⟩
  | cons cr crs ih =>
    rintro u ph hs ⟨x, hx⟩
    rw [dealsOf, Multiset.mem_bind] at hx
    obtain ⟨c, hc, hx⟩ := hx
    by_cases hu : u &&& c.mask ≠ 0
    · rw [if_pos hu] at hx; simp at hx
    · rw [if_neg hu] at hx
      obtain ⟨y, hy⟩ := ih _ _ (fun cr hcr => hs cr (by simp [hcr])) ⟨x, hx⟩
      obtain ⟨i, hi, he⟩ := List.getElem_of_mem (Multiset.mem_coe.1 hc)
      exact ⟨i :: y, by rw [hs cr (by simp)]; exact hi, c, by rw [List.getElem?_eq_getElem hi, he], not_not.1 hu, hy⟩

/-- If there is a legal deal at all, there are draws that lead to one. -/
theorem McReady.legal (h : McReady ranges b d s) (hne : deals (specRanges ranges) (maskCards b ++ maskCards d) ≠ []) :
    ∃ x, LegalIdx s.combinedRanges (s.boardMask ||| s.deadMask) x := by
  obtain ⟨dd, hdd⟩ := List.exists_mem_of_ne_nil _ hne
  apply legal_of_deals _ _ (fun _ => (52, 52, 100)) h.crsOk.1.size
  rw [h.fields.2.1, h.fields.2.2.1, h.deals_eq]
  exact ⟨_, Multiset.mem_coe.2 (List.mem_map_of_mem hdd)⟩

theorem McReady.nonempty (h : McReady ranges b d s) : 0 < s.combinedRanges.length := by
  obtain ⟨_, _, _, _, _, h2, _⟩ := h.fields
  have := h.players.length_eq
  rw [List.length_range] at this
  cases hc : s.combinedRanges with
  | nil => rw [hc] at this; simp at this; omega
  | cons _ _ => simp

/-! ## A thread is never stuck -/

theorem mc_progress (h : McReady ranges b d s) {w : McWorld} {hist : List (Batch × HandStats)}
    {Dr : List (List WHand × List Nat)} {Dl : Nat → List (List WHand × List Nat)} (hi : McInv sqrt ranges b d s r0 nT w hist Dr Dl)
    {t : Nat} (ht : t < nT) : ∃ ds l g, mcStep sqrt target s (w.locals t) w.shared ds = .ok (l, g) [] := by
  have hs : ∀ cr ∈ s.combinedRanges, cr.size = cr.combos.length ∧ 0 < cr.size := fun cr hcr =>
    ⟨h.crsOk.1.size cr hcr, h.crsOk.2 cr hcr⟩
  unfold mcStep
  cases hc : (w.locals t).pc with
  | start =>
    obtain ⟨ds, a, h1⟩ := attempts_some s hs 1000
    obtain ⟨w', h1⟩ := h1 (w.locals t).walk
    simp only
    have h2 : randomizeHoleCards s (w.locals t).walk ds = .ok (a, w') [] := h1
    exact ⟨ds, _, _, by rw [h2]⟩
  | eval =>
    obtain ⟨picks, hw⟩ := hi.walk t ht (Or.inl hc)
    obtain ⟨dd, hdd, hat⟩ := h.atDeal hw (hi.outside t ht)
    obtain ⟨ds, l', h1⟩ := h.evalDeal_some hdd hat
    simp only
    exact ⟨ds, _, _, by rw [h1]⟩
  | flush => exact ⟨[], _, _, rfl⟩
  | check => exact ⟨[], _, _, rfl⟩
  | restart =>
    obtain ⟨ds, a, h1⟩ := attempts_some s hs 1000
    obtain ⟨w', h1⟩ := h1 (w.locals t).walk
    simp only
    have h2 : randomizeHoleCards s (w.locals t).walk ds = .ok (a, w') [] := h1
    exact ⟨ds, _, _, by rw [h2]⟩
  | move =>
    obtain ⟨picks, hw⟩ := hi.walk t ht (Or.inr hc)
    obtain ⟨w1, c, e1, _⟩ := redeal_spec h.crsOk.1 hw h.nonempty
    simp only
    refine ⟨[0], { w.locals t with walk := w1, pc := .eval }, w.shared, ?_⟩
    have : sample s.combinedRanges.length [0] = .ok 0 [] := if_pos h.nonempty
    rw [this]
    simp only
    rw [List.getElem?_eq_getElem h.nonempty]
    simp only
    rw [e1]
  | final => exact ⟨[], _, _, rfl⟩
  | done => exact ⟨[], _, _, rfl⟩
  | panicked => exact ⟨[], _, _, rfl⟩

/-! ## Complete runs -/

theorem McSteps.trans {u v w : McWorld} (h1 : McSteps sqrt target s nT u v) (h2 : McSteps sqrt target s nT v w) :
    McSteps sqrt target s nT u w := by
  induction h2 with
  | refl => exact h1
  | step _ hs ih => exact .step ih hs

/-- A thread at an evaluation can go on until its batch is full. -/
theorem fill_batch (h : McReady ranges b d s) {cancelled : Bool} {t : Nat} (ht : t < nT) : ∀ (k : Nat) (w : McWorld),
    McSteps sqrt target s nT (McWorld.init s r0 cancelled) w → (w.locals t).pc = .eval → 4096 ≤ (w.locals t).stats.evalCount + k + 1 →
    ∃ w', McSteps sqrt target s nT (McWorld.init s r0 cancelled) w' ∧ (w'.locals t).pc = .flush ∧ (w'.locals t).stats.evalCount = 4096 ∧
      (∀ u, u ≠ t → w'.locals u = w.locals u) ∧ w'.shared = w.shared := by
  intro k
  induction k with
  | zero =>
    intro w hw hpc hk
    obtain ⟨hist, Dr, Dl, hi⟩ := McInv.steps h hw
    obtain ⟨ds, l, g, hs⟩ := mc_progress (target := target) h hi ht
    have hstep : McStep sqrt target s nT w { locals := Function.update w.locals t l, shared := g } :=
      .thread w t ht ⟨by rw [hpc]; exact (fun h => by cases h), by rw [hpc]; exact (fun h => by cases h)⟩ ds l g hs
    obtain ⟨hist', Dr', Dl', hi'⟩ := McInv.steps h (.step hw hstep)
    have hlt : (Dl t).length < 4096 := by have := hi.len t ht; rw [hpc] at this; exact this
    have hc0 : (w.locals t).stats.evalCount = (Dl t).length := congrArg Prod.snd (hi.loc t ht)
    unfold mcStep at hs
    rw [hpc] at hs
    simp only at hs
    obtain ⟨picks, hwk⟩ := hi.walk t ht (Or.inl hpc)
    obtain ⟨dd, hdd, hat⟩ := h.atDeal hwk (hi.outside t ht)
    cases ho : evalDeal s (w.locals t) ds with
    | more => rw [ho] at hs; cases hs
    | panic => exact absurd ho (h.evalDeal hdd hat ds).1
    | ok l1 rest =>
      obtain ⟨B, _, g1, _⟩ := (h.evalDeal hdd hat ds).2 _ _ ho
      have hcnt : l1.stats.evalCount = (w.locals t).stats.evalCount + 1 := congrArg Prod.snd g1
      rw [ho] at hs
      injection hs with hs _
      injection hs with hl hg
      subst hl; subst hg
      refine ⟨_, .step hw hstep, ?_, ?_, fun u hu => Function.update_of_ne hu _ _, rfl⟩
      · show (Function.update w.locals t _ t).pc = _
        rw [Function.update_self]
        show (if l1.stats.evalCount &&& 0xfff = 0 then McPc.flush else McPc.move) = _
        rw [and_fff, hcnt, if_pos (by omega)]
      · show (Function.update w.locals t _ t).stats.evalCount = _
        rw [Function.update_self]
        show l1.stats.evalCount = _
        omega
  | succ k ih =>
    intro w hw hpc hk
    by_cases hk' : 4096 ≤ (w.locals t).stats.evalCount + k + 1
    · exact ih w hw hpc hk'
    · obtain ⟨hist, Dr, Dl, hi⟩ := McInv.steps h hw
      obtain ⟨ds, l, g, hs⟩ := mc_progress (target := target) h hi ht
      have hstep : McStep sqrt target s nT w { locals := Function.update w.locals t l, shared := g } :=
        .thread w t ht ⟨by rw [hpc]; exact (fun h => by cases h), by rw [hpc]; exact (fun h => by cases h)⟩ ds l g hs
      unfold mcStep at hs
      rw [hpc] at hs
      simp only at hs
      obtain ⟨picks, hwk⟩ := hi.walk t ht (Or.inl hpc)
      obtain ⟨dd, hdd, hat⟩ := h.atDeal hwk (hi.outside t ht)
      cases ho : evalDeal s (w.locals t) ds with
      | more => rw [ho] at hs; cases hs
      | panic => exact absurd ho (h.evalDeal hdd hat ds).1
      | ok l1 rest =>
        obtain ⟨B, _, g1, _⟩ := (h.evalDeal hdd hat ds).2 _ _ ho
        have hcnt : l1.stats.evalCount = (w.locals t).stats.evalCount + 1 := congrArg Prod.snd g1
        rw [ho] at hs
        injection hs with hs _
        injection hs with hl hg
        subst hl; subst hg
        have hif : (if l1.stats.evalCount &&& 0xfff = 0 then McPc.flush else McPc.move) = .move := by
          rw [and_fff, hcnt, if_neg (by omega)]
        simp only [hif] at hstep
        have hw1 := McSteps.step hw hstep
        obtain ⟨hist1, Dr1, Dl1, hi1⟩ := McInv.steps h hw1
        obtain ⟨ds1, l2, g2, hs1⟩ := mc_progress (target := target) h hi1 ht
        simp only [Function.update_self] at hs1
        have hpc1 : ((Function.update w.locals t { l1 with pc := McPc.move }) t).pc = .move := by rw [Function.update_self]
        have hstep1 := McStep.thread (sqrt := sqrt) (target := target) (s := s) (nThreads := nT)
          { locals := Function.update w.locals t { l1 with pc := McPc.move }, shared := w.shared } t ht
          ⟨by rw [hpc1]; exact (fun h => by cases h), by rw [hpc1]; exact (fun h => by cases h)⟩ ds1 l2 g2
          (by simp only [Function.update_self]; exact hs1)
        unfold mcStep at hs1
        simp only at hs1
        cases ho1 : sample s.combinedRanges.length ds1 with
        | more => rw [ho1] at hs1; cases hs1
        | panic => exact absurd ho1 (sample_no_panic _ _)
        | ok i rest1 =>
          rw [ho1] at hs1
          simp only at hs1
          obtain ⟨hil, _⟩ := sample_ok ho1
          rw [List.getElem?_eq_getElem hil] at hs1
          simp only at hs1
          obtain ⟨picks1, hwk1⟩ := hi1.walk t ht (Or.inr hpc1)
          obtain ⟨w1, c, e1, e2, e3, e4⟩ := redeal_spec h.crsOk.1 hwk1 hil
          simp only [Function.update_self] at e1
          rw [e1] at hs1
          injection hs1 with hs1 _
          injection hs1 with hl hg
          subst hl; subst hg
          obtain ⟨w', a1, a2, a3, a4, a5⟩ := ih _ (McSteps.step hw1 hstep1) (by
            show McLocal.pc (Function.update (β := fun _ => McLocal) _ t _ t) = _
            rw [Function.update_self]) (by
            show 4096 ≤ (McLocal.stats (Function.update (β := fun _ => McLocal) _ t _ t)).evalCount + k + 1
            rw [Function.update_self]
            show 4096 ≤ l1.stats.evalCount + k + 1
            omega)
          refine ⟨w', a1, a2, a3, fun u hu => ?_, a5⟩
          rw [a4 u hu]
          show Function.update (Function.update w.locals t _) t _ u = _
          rw [Function.update_of_ne hu, Function.update_of_ne hu]

theorem thread_step {w : McWorld} {t : Nat} (ht : t < nT) {l l' : McLocal} {g' : McShared} (hl : w.locals t = l)
    (hpc : l.pc ≠ .done ∧ l.pc ≠ .panicked) (ds : Draws) (h : mcStep sqrt target s l w.shared ds = .ok (l', g') []) :
    McStep sqrt target s nT w { locals := Function.update w.locals t l', shared := g' } :=
  .thread w t ht (by rw [hl]; exact hpc) ds l' g' (by rw [hl]; exact h)

theorem update_stopped {f : Bool} {l : McLocal} {g : McShared} (h : g.stopped = true) : (g.update sqrt target s f l).stopped = true := by
  unfold McShared.update
  simp only
  split
  · rfl
  · exact h

/-- When the token is set, a thread can finish after one batch. -/
theorem finish_thread (h : McReady ranges b d s) (hne : deals (specRanges ranges) (maskCards b ++ maskCards d) ≠ [])
    {cancelled : Bool} {t : Nat} (ht : t < nT) {w : McWorld} (hw : McSteps sqrt target s nT (McWorld.init s r0 cancelled) w)
    (hpc : w.locals t = McLocal.init s.nPlayers) (hst : w.shared.stopped = true) :
    ∃ w', McSteps sqrt target s nT (McWorld.init s r0 cancelled) w' ∧ (w'.locals t).pc = .done ∧
      (∀ u, u ≠ t → w'.locals u = w.locals u) ∧ w'.shared.stopped = true ∧
      w'.shared.results.evalCount = w.shared.results.evalCount + 4096 := by
  obtain ⟨x, hx⟩ := h.legal hne
  obtain ⟨w1, h1, _⟩ := attempts_legal s 999 Walk.init hx
  have st1 := thread_step (sqrt := sqrt) (target := target) (s := s) ht hpc ⟨(fun h => by cases h), (fun h => by cases h)⟩ x
    (l' := { McLocal.init s.nPlayers with walk := w1, pc := .eval }) (g' := w.shared) (by
      show (match randomizeHoleCards s Walk.init x with
        | .ok (ok, w') ds => Out.ok ({ McLocal.init s.nPlayers with walk := w', pc := if ok then .eval else .final }, w.shared) ds
        | .more => .more
        | .panic => .ok ({ McLocal.init s.nPlayers with pc := .panicked }, w.shared) []) = _
      rw [show randomizeHoleCards s Walk.init x = .ok (true, w1) [] from h1]
      rfl)
  have hw1 := McSteps.step hw st1
  obtain ⟨w2, a1, a2, a3, a4, a5⟩ := fill_batch h ht 4095 _ hw1 (by
    show McLocal.pc (Function.update (β := fun _ => McLocal) _ t _ t) = _
    rw [Function.update_self]) (by omega)
  have st2 := thread_step (sqrt := sqrt) (target := target) (s := s) (w := w2) ht rfl ⟨by rw [a2]; exact (fun h => by cases h), by rw [a2]; exact (fun h => by cases h)⟩ []
    (l' := { w2.locals t with pc := .check, stats := Batch.init s.nPlayers, hands := HandStats.init })
    (g' := w2.shared.update sqrt target s false (w2.locals t)) (by unfold mcStep; rw [a2])
  have hst2 : (w2.shared.update sqrt target s false (w2.locals t)).stopped = true := by
    exact update_stopped (by rw [a5]; exact hst)
  have st3 := thread_step (sqrt := sqrt) (target := target) (s := s)
    (w := { locals := Function.update w2.locals t { w2.locals t with pc := .check, stats := Batch.init s.nPlayers, hands := HandStats.init }, shared := w2.shared.update sqrt target s false (w2.locals t) })
    ht (Function.update_self ..) ⟨(fun h => by cases h), (fun h => by cases h)⟩ []
    (l' := { w2.locals t with pc := .final, stats := Batch.init s.nPlayers, hands := HandStats.init })
    (g' := w2.shared.update sqrt target s false (w2.locals t)) (by unfold mcStep; simp only [hst2, if_true])
  have st4 := thread_step (sqrt := sqrt) (target := target) (s := s)
    (w := { locals := Function.update (Function.update w2.locals t { w2.locals t with pc := .check, stats := Batch.init s.nPlayers, hands := HandStats.init }) t { w2.locals t with pc := .final, stats := Batch.init s.nPlayers, hands := HandStats.init }, shared := w2.shared.update sqrt target s false (w2.locals t) })
    ht (Function.update_self ..) ⟨(fun h => by cases h), (fun h => by cases h)⟩ []
    (l' := { w2.locals t with pc := .done, stats := Batch.init s.nPlayers, hands := HandStats.init })
    (g' := (w2.shared.update sqrt target s false (w2.locals t)).update sqrt target s true { w2.locals t with pc := .final, stats := Batch.init s.nPlayers, hands := HandStats.init }) (by unfold mcStep; rfl)
  refine ⟨_, .step (.step (.step a1 st2) st3) st4, ?_, fun u hu => ?_, ?_, ?_⟩
  · show McLocal.pc (Function.update (β := fun _ => McLocal) _ t _ t) = _
    rw [Function.update_self]
  · show Function.update (Function.update (Function.update _ t _) t _) t _ u = _
    rw [Function.update_of_ne hu, Function.update_of_ne hu, Function.update_of_ne hu, a4 u hu]
    show Function.update w.locals t _ u = _
    rw [Function.update_of_ne hu]
  · exact update_stopped hst2
  · have hupd : ∀ b f l g, (McShared.update sqrt target b f l g).results.evalCount = g.results.evalCount + l.stats.evalCount := by
      intro b f l g
      show (updateResults _ _ _ _ _ _).evalCount = _
      unfold updateResults
      simp only
      split <;> rfl
    rw [hupd, hupd, a3, a5]
    rfl

/-- Complete runs exist, in which every thread makes 4096 evaluations. -/
theorem exists_run (sqrt : ℚ → ℚ) (target : ℚ) (hwf : ∀ r ∈ ranges, WfRange r) (hb : CardMask b) (hd : CardMask d)
    {s : Sim} (hp : PrepareApprox ranges b d (.ok s)) (hne : deals (specRanges ranges) (maskCards b ++ maskCards d) ≠ []) (nT : Nat)
    (cancelled : Bool) : ∃ r sent, ApproxEquity sqrt ranges b d nT target cancelled (.ok r) sent ∧ r.evalCount = 4096 * nT := by
  have h : McReady ranges b d s := ⟨hwf, hb, hd, hp⟩
  obtain ⟨s0, hs0, _, hs⟩ := h.exact
  have ha := prepareExact_ok hs0
  obtain ⟨r0, flag, hst⟩ := start_some_of (d := d) hwf (s := s) h.fields.2.1 h.fields.2.2.2.2.2.2.2.2.2 (by rw [hs, ha.sim]; rfl)
  have main : ∀ k ≤ nT, ∃ w, McSteps sqrt target s nT (McWorld.init s r0 cancelled) w ∧ (∀ t < k, (w.locals t).pc = .done) ∧
      (∀ t, k ≤ t → w.locals t = McLocal.init s.nPlayers) ∧ w.shared.stopped = true ∧ w.shared.results.evalCount = 4096 * k := by
    intro k
    induction k with
    | zero =>
      intro _
      refine ⟨_, .step .refl (.cancel _), fun t ht => by omega, fun t _ => rfl, rfl, ?_⟩
      exact congrArg Prod.snd (startResults_counts hst).2.2.1
    | succ k ih =>
      intro hk
      obtain ⟨w, h1, h2, h3, h4, h5⟩ := ih (by omega)
      obtain ⟨w', g1, g2, g3, g4, g5⟩ := finish_thread h hne (by omega : k < nT) h1 (h3 k le_rfl) h4
      refine ⟨w', g1, fun t ht => ?_, fun t ht => ?_, g4, by rw [g5, h5]; ring⟩
      · by_cases htk : t = k
        · subst htk; exact g2
        · rw [g3 t htk]; exact h2 t (by omega)
      · rw [g3 t (by omega)]; exact h3 t (by omega)
  obtain ⟨w, h1, h2, _, _, h5⟩ := main nT le_rfl
  refine ⟨_, _, ⟨.ok s, hp, r0, flag, w, hst, h1, h2, rfl, rfl⟩, ?_⟩
  rw [(finishResults_counts _ _ _).2.2.2.1, h5]

end
end Pokers
