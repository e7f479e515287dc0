import Verif.Proofs.MonteCarlo
/-!
# The threads of the random simulation
-/
namespace Pokers
open CombinedRange Sim Spec

/-- A showdown: a legal deal with a legal board. -/
def Legal (ranges : List (List Combo)) (b d : Nat) (x : List WHand × List Nat) : Prop :=
  x.1 ∈ deals (specRanges ranges) (maskCards b ++ maskCards d) ∧ x.2 ∈ boards (maskCards b) (maskCards d) x.1

/-- What a list of showdowns adds. -/
def showsFull (xs : List (List WHand × List Nat)) : FT := (sdTally xs, xs.length)

theorem showsFull_nil : showsFull [] = 0 := by unfold showsFull; rw [sdTally_nil]; rfl

theorem showsFull_append (xs ys : List (List WHand × List Nat)) : showsFull (xs ++ ys) = showsFull xs + showsFull ys := by
  unfold showsFull; rw [sdTally_append, List.length_append]; rfl

theorem showsFull_single (x : List WHand × List Nat) : showsFull [x] = showFull x := rfl

/-- The number of evaluations a thread has not yet added to the results, at the places where it is known. -/
def LenAt (pc : McPc) (k : Nat) : Prop :=
  match pc with
  | .eval | .move => k < 4096
  | .flush => k = 4096
  | _ => k = 0

/-- The state of the system, with the ghost variables `hist` (the batches added to the results so far), `Dr` (the showdowns in
the results) and `Dl t` (the showdowns in the counters of thread `t`). -/
structure McInv (sqrt : ℚ → ℚ) (ranges : List (List Combo)) (b d : Nat) (s : Sim) (r0 : Results) (nT : Nat) (w : McWorld)
    (hist : List (Batch × HandStats)) (Dr : List (List WHand × List Nat)) (Dl : Nat → List (List WHand × List Nat)) : Prop where
  res : w.shared.results = applyFlushes sqrt s.nPlayers false hist r0
  sent : w.shared.sent.length = hist.length
  hids : ∀ x ∈ hist, IdPlayers s.nPlayers x.1
  hbatch : ∀ x ∈ hist, ∃ sd : List (List WHand × List Nat), (∀ y ∈ sd, Legal ranges b d y) ∧ full x = showsFull sd
  hsum : (hist.map full).sum = showsFull Dr
  hcount : ∀ x ∈ hist, x.1.evalCount = 4096 ∨ x = (Batch.init s.nPlayers, HandStats.init)
  loc : ∀ t < nT, full ((w.locals t).stats, (w.locals t).hands) = showsFull (Dl t)
  fresh : ∀ t < nT, Dl t = [] → ((w.locals t).stats, (w.locals t).hands) = (Batch.init s.nPlayers, HandStats.init)
  len : ∀ t < nT, LenAt (w.locals t).pc (Dl t).length
  ids : ∀ t < nT, IdPlayers s.nPlayers (w.locals t).stats
  legalR : ∀ x ∈ Dr, Legal ranges b d x
  legalL : ∀ t < nT, ∀ x ∈ Dl t, Legal ranges b d x
  walk : ∀ t < nT, (w.locals t).pc = .eval ∨ (w.locals t).pc = .move →
    ∃ picks, WalkOk s.combinedRanges (b ||| d) (w.locals t).walk picks
  outside : ∀ t < nT, Outside s.combinedRanges (w.locals t).walk
  fine : ∀ t < nT, (w.locals t).pc ≠ .panicked

section
variable {sqrt : ℚ → ℚ} {target : ℚ} {ranges : List (List Combo)} {b d : Nat} {s : Sim} {r0 : Results} {nT : Nat}

theorem McInv.init (sqrt : ℚ → ℚ) (ranges : List (List Combo)) (b d : Nat) (s : Sim) (r0 : Results) (nT : Nat) (cancelled : Bool) :
    McInv sqrt ranges b d s r0 nT (McWorld.init s r0 cancelled) [] [] (fun _ => []) where
  res := rfl
  sent := rfl
  hids := by simp
  hbatch := by simp
  hsum := by rw [showsFull_nil]; rfl
  hcount := by simp
  loc := fun t _ => by rw [showsFull_nil]; exact full_init _
  fresh := fun t _ _ => rfl
  len := fun t _ => rfl
  ids := fun t _ => batchInit_ids s.nPlayers
  legalR := by simp
  legalL := by simp
  walk := fun t _ h => by
    have : ((McWorld.init s r0 cancelled).locals t).pc = .start := rfl
    rw [this] at h
    rcases h with h | h <;> cases h
  outside := fun t _ p _ => rfl
  fine := fun t _ h => by cases h

/-- What a step of thread `t` has to establish. -/
theorem McInv.thread {w : McWorld} {hist : List (Batch × HandStats)} {Dr : List (List WHand × List Nat)}
    {Dl : Nat → List (List WHand × List Nat)} (h : McInv sqrt ranges b d s r0 nT w hist Dr Dl) {t : Nat} {l' : McLocal}
    {g' : McShared} {hist' : List (Batch × HandStats)} {Dr' D' : List (List WHand × List Nat)}
    (hres : g'.results = applyFlushes sqrt s.nPlayers false hist' r0) (hsent : g'.sent.length = hist'.length)
    (hids' : ∀ x ∈ hist', IdPlayers s.nPlayers x.1)
    (hbatch : ∀ x ∈ hist', ∃ sd : List (List WHand × List Nat), (∀ y ∈ sd, Legal ranges b d y) ∧ full x = showsFull sd)
    (hsum : (hist'.map full).sum = showsFull Dr')
    (hcount : ∀ x ∈ hist', x.1.evalCount = 4096 ∨ x = (Batch.init s.nPlayers, HandStats.init))
    (hloc : full (l'.stats, l'.hands) = showsFull D')
    (hfresh : D' = [] → (l'.stats, l'.hands) = (Batch.init s.nPlayers, HandStats.init)) (hlen : LenAt l'.pc D'.length)
    (hids : IdPlayers s.nPlayers l'.stats) (hR : ∀ x ∈ Dr', Legal ranges b d x) (hL : ∀ x ∈ D', Legal ranges b d x)
    (hwalk : l'.pc = .eval ∨ l'.pc = .move → ∃ picks, WalkOk s.combinedRanges (b ||| d) l'.walk picks)
    (hout : Outside s.combinedRanges l'.walk) (hfine : l'.pc ≠ .panicked) :
    McInv sqrt ranges b d s r0 nT { locals := Function.update w.locals t l', shared := g' } hist' Dr' (Function.update Dl t D') := by
  have key : ∀ (P : McLocal → List (List WHand × List Nat) → Prop), P l' D' → (∀ u < nT, P (w.locals u) (Dl u)) →
      ∀ u < nT, P (Function.update w.locals t l' u) (Function.update Dl t D' u) := by
    intro P h1 h2 u hu
    by_cases hut : u = t
    · subst hut; rw [Function.update_self, Function.update_self]; exact h1
    · rw [Function.update_of_ne hut, Function.update_of_ne hut]; exact h2 u hu
  exact ⟨hres, hsent, hids', hbatch, hsum, hcount, key (fun l D => full (l.stats, l.hands) = showsFull D) hloc h.loc,
    key (fun l D => D = [] → (l.stats, l.hands) = _) hfresh h.fresh, key (fun l D => LenAt l.pc D.length) hlen h.len,
    key (fun l _ => IdPlayers s.nPlayers l.stats) hids h.ids, hR, key (fun _ D => ∀ x ∈ D, Legal ranges b d x) hL h.legalL,
    key (fun l _ => l.pc = .eval ∨ l.pc = .move → ∃ picks, WalkOk s.combinedRanges (b ||| d) l.walk picks) hwalk h.walk,
    key (fun l _ => Outside s.combinedRanges l.walk) hout h.outside, key (fun l _ => l.pc ≠ .panicked) hfine h.fine⟩

/-- A step that changes neither the counters nor the results. -/
theorem McInv.quiet {w : McWorld} {hist : List (Batch × HandStats)} {Dr : List (List WHand × List Nat)}
    {Dl : Nat → List (List WHand × List Nat)} (h : McInv sqrt ranges b d s r0 nT w hist Dr Dl) {t : Nat} (ht : t < nT) {l' : McLocal}
    (hs : l'.stats = (w.locals t).stats) (hh : l'.hands = (w.locals t).hands) (hlen : LenAt l'.pc (Dl t).length)
    (hwalk : l'.pc = .eval ∨ l'.pc = .move → ∃ picks, WalkOk s.combinedRanges (b ||| d) l'.walk picks)
    (hout : Outside s.combinedRanges l'.walk) (hfine : l'.pc ≠ .panicked) :
    McInv sqrt ranges b d s r0 nT { locals := Function.update w.locals t l', shared := w.shared } hist Dr
      (Function.update Dl t (Dl t)) := by
  apply h.thread h.res h.sent h.hids h.hbatch h.hsum h.hcount (by rw [hs, hh]; exact h.loc t ht) (by rw [hs, hh]; exact h.fresh t ht) hlen
    (by rw [hs]; exact h.ids t ht) h.legalR (h.legalL t ht) hwalk hout hfine

theorem and_fff (k : Nat) : k &&& 0xfff = k % 4096 := Nat.and_two_pow_sub_one_eq_mod k 12

/-- What a step of thread `t`, which is in the state `l`, does to the ghost variables. -/
def Moves (s : Sim) (b d t : Nat) (l : McLocal) (Dr : List (List WHand × List Nat)) (Dl : Nat → List (List WHand × List Nat))
    (Dr' : List (List WHand × List Nat)) (Dl' : Nat → List (List WHand × List Nat)) : Prop :=
  match l.pc with
  | .eval => Dr' = Dr ∧ ∃ picks B, WalkOk s.combinedRanges (b ||| d) l.walk picks ∧ Dl' = Function.update Dl t
      (Dl t ++ [((List.range s.nPlayers).map (writeAll s.combinedRanges picks (fun _ => (52, 52, 100))), B)])
  | .flush | .final => Dr' = Dr ++ Dl t ∧ Dl' = Function.update Dl t []
  | _ => Dr' = Dr ∧ Dl' = Dl

/-- Every step of a thread keeps the invariant; which showdown is added, and what becomes of the showdowns. -/
theorem McInv.moves (hr : McReady ranges b d s) {w : McWorld} {hist : List (Batch × HandStats)}
    {Dr : List (List WHand × List Nat)} {Dl : Nat → List (List WHand × List Nat)} (h : McInv sqrt ranges b d s r0 nT w hist Dr Dl)
    {t : Nat} (ht : t < nT) (hpc : (w.locals t).pc ≠ .done ∧ (w.locals t).pc ≠ .panicked) {ds : Draws} {l : McLocal} {g : McShared}
    (hs : mcStep sqrt target s (w.locals t) w.shared ds = .ok (l, g) []) :
    ∃ hist' Dr' Dl', McInv sqrt ranges b d s r0 nT { locals := Function.update w.locals t l, shared := g } hist' Dr' Dl' ∧
      Moves s b d t (w.locals t) Dr Dl Dr' Dl' := by
  obtain ⟨hn, hbm, hdm, hfb, hce, _, _, _, _, _⟩ := hr.fields
  obtain ⟨hok, hsz⟩ := hr.crsOk
  have hlen := h.len t ht
  have hout := h.outside t ht
  unfold mcStep at hs
  unfold Moves
  cases hc : (w.locals t).pc with
  | start =>
    rw [hc] at hs hlen
    simp only
    simp only at hs
    obtain ⟨h1, h2⟩ := randomizeHoleCards_spec s hok hout ds
    cases ho : randomizeHoleCards s (w.locals t).walk ds with
    | more => rw [ho] at hs; cases hs
    | panic => exact absurd ho h1
    | ok a rest =>
      obtain ⟨ok, w1⟩ := a
      obtain ⟨g1, g2⟩ := h2 _ _ _ ho
      rw [ho] at hs
      injection hs with hs _
      injection hs with hl hg
      subst hl; subst hg
      have hl0 : (Dl t).length = 0 := hlen
      refine ⟨hist, Dr, _, h.quiet ht rfl rfl ?_ ?_ g1 ?_, rfl, Function.update_eq_self ..⟩
      · cases ok
        · exact hl0
        · show (Dl t).length < 4096; omega
      · cases ok
        · intro hx; rcases hx with hx | hx <;> cases hx
        · intro _; rw [hbm, hdm] at g2; exact g2 rfl
      · cases ok <;> exact fun hx => by cases hx
  | eval =>
    rw [hc] at hs hlen
    simp only
    simp only at hs
    obtain ⟨picks, hw⟩ := h.walk t ht (Or.inl hc)
    obtain ⟨dd, hdd, hat, hwritten⟩ := hr.atDeal_written hw hout
    obtain ⟨h1, h2⟩ := hr.evalDeal hdd hat ds
    cases ho : evalDeal s (w.locals t) ds with
    | more => rw [ho] at hs; cases hs
    | panic => exact absurd ho h1
    | ok l1 rest =>
      obtain ⟨B, hB, g1, g2, g3, g4⟩ := h2 _ _ ho
      rw [ho] at hs
      injection hs with hs _
      injection hs with hl hg
      subst hl; subst hg
      have hfull : full (l1.stats, l1.hands) = showsFull (Dl t ++ [(dd, B)]) := by
        rw [g1, h.loc t ht, showsFull_append, showsFull_single]
      have hcnt : l1.stats.evalCount = (Dl t).length + 1 := by
        have := congrArg Prod.snd hfull
        rw [show (showsFull (Dl t ++ [(dd, B)])).2 = (Dl t ++ [(dd, B)]).length from rfl, List.length_append] at this
        exact this
      have hlt : (Dl t).length < 4096 := hlen
      refine ⟨hist, Dr, _, h.thread (D' := Dl t ++ [(dd, B)]) h.res h.sent h.hids h.hbatch h.hsum h.hcount hfull (by simp) ?_ ?_ h.legalR ?_ ?_ ?_ ?_, rfl, picks, B, hw, by rw [hwritten]⟩
      · rw [and_fff, hcnt, List.length_append, List.length_singleton]
        by_cases hz : ((Dl t).length + 1) % 4096 = 0
        · simp only [hz, if_true]
          show (Dl t).length + 1 = 4096
          omega
        · simp only [hz, if_false]
          show (Dl t).length + 1 < 4096
          omega
      · show IdPlayers s.nPlayers l1.stats
        have := h.ids t ht
        unfold IdPlayers at this ⊢
        rw [g2]; exact this
      · intro x hx
        rcases List.mem_append.1 hx with hx | hx
        · exact h.legalL t ht x hx
        · rw [List.mem_singleton] at hx; subst hx; exact ⟨hdd, hB⟩
      · intro _
        show ∃ picks, WalkOk _ _ l1.walk picks
        rw [g3]; exact ⟨picks, hw⟩
      · show Outside _ l1.walk
        rw [g3]; exact hout
      · show (if _ then McPc.flush else McPc.move) ≠ _
        split <;> exact fun hx => by cases hx
  | flush =>
    rw [hc] at hs hlen
    simp only
    simp only at hs
    injection hs with hs _
    injection hs with hl hg
    subst hl; subst hg
    have hl0 : (Dl t).length = 4096 := hlen
    have hcnt : (w.locals t).stats.evalCount = (Dl t).length := congrArg Prod.snd (h.loc t ht)
    refine ⟨hist ++ [((w.locals t).stats, (w.locals t).hands)], Dr ++ Dl t, _,
      h.thread (D' := []) ?_ ?_ ?_ ?_ ?_ ?_ ?_ (fun _ => rfl) rfl (batchInit_ids _) ?_ (by simp) ?_ hout ?_, rfl, rfl⟩
    · rw [applyFlushes_snoc, ← h.res]
      show updateResults _ _ s.calcExact _ _ _ = _
      rw [hce]
    · show (w.shared.sent ++ [_]).length = _
      rw [List.length_append, List.length_append, h.sent]; rfl
    · intro x hx
      rcases List.mem_append.1 hx with hx | hx
      · exact h.hids x hx
      · rw [List.mem_singleton] at hx; subst hx; exact h.ids t ht
    · intro x hx
      rcases List.mem_append.1 hx with hx | hx
      · exact h.hbatch x hx
      · rw [List.mem_singleton] at hx; subst hx; exact ⟨Dl t, h.legalL t ht, h.loc t ht⟩
    · rw [List.map_append, List.sum_append, h.hsum, showsFull_append, ← h.loc t ht]; simp
    · intro x hx
      rcases List.mem_append.1 hx with hx | hx
      · exact h.hcount x hx
      · rw [List.mem_singleton] at hx; subst hx; left; show (w.locals t).stats.evalCount = _; rw [hcnt, hl0]
    · rw [showsFull_nil]; exact full_init _
    · intro x hx
      rcases List.mem_append.1 hx with hx | hx
      · exact h.legalR x hx
      · exact h.legalL t ht x hx
    · intro hx; rcases hx with hx | hx <;> cases hx
    · exact fun hx => by cases hx
  | check =>
    rw [hc] at hs hlen
    simp only
    simp only at hs
    injection hs with hs _
    injection hs with hl hg
    subst hl; subst hg
    have hl0 : (Dl t).length = 0 := hlen
    refine ⟨hist, Dr, _, h.quiet ht rfl rfl ?_ ?_ hout ?_, rfl, Function.update_eq_self ..⟩
    · show LenAt (if _ then McPc.final else McPc.restart) _
      split <;> exact hl0
    · show (if _ then McPc.final else McPc.restart) = _ ∨ (if _ then McPc.final else McPc.restart) = _ → _
      split <;> (intro hx; rcases hx with hx | hx <;> cases hx)
    · show (if _ then McPc.final else McPc.restart) ≠ _
      split <;> exact fun hx => by cases hx
  | restart =>
    rw [hc] at hs hlen
    simp only
    simp only at hs
    obtain ⟨h1, h2⟩ := randomizeHoleCards_spec s hok hout ds
    cases ho : randomizeHoleCards s (w.locals t).walk ds with
    | more => rw [ho] at hs; cases hs
    | panic => exact absurd ho h1
    | ok a rest =>
      obtain ⟨ok, w1⟩ := a
      obtain ⟨g1, g2⟩ := h2 _ _ _ ho
      rw [ho] at hs
      injection hs with hs _
      injection hs with hl hg
      subst hl; subst hg
      have hl0 : (Dl t).length = 0 := hlen
      refine ⟨hist, Dr, _, h.quiet ht rfl rfl ?_ ?_ g1 ?_, rfl, Function.update_eq_self ..⟩
      · cases ok
        · exact hl0
        · show (Dl t).length < 4096; omega
      · cases ok
        · intro hx; rcases hx with hx | hx <;> cases hx
        · intro _; rw [hbm, hdm] at g2; exact g2 rfl
      · cases ok <;> exact fun hx => by cases hx
  | move =>
    rw [hc] at hs hlen
    simp only
    simp only at hs
    obtain ⟨picks, hw⟩ := h.walk t ht (Or.inr hc)
    cases ho : sample s.combinedRanges.length ds with
    | more => rw [ho] at hs; cases hs
    | panic => exact absurd ho (sample_no_panic _ _)
    | ok i rest =>
      rw [ho] at hs
      simp only at hs
      obtain ⟨hi, _⟩ := sample_ok ho
      rw [List.getElem?_eq_getElem hi] at hs
      simp only at hs
      obtain ⟨w1, c, e1, e2, e3, e4⟩ := redeal_spec hok hw hi
      rw [e1] at hs
      injection hs with hs _
      injection hs with hl hg
      subst hl; subst hg
      exact ⟨hist, Dr, _, h.quiet ht rfl rfl hlen (fun _ => ⟨_, e3⟩) (e4 hout) (fun hx => by cases hx), rfl, Function.update_eq_self ..⟩
  | final =>
    rw [hc] at hs hlen
    simp only
    simp only at hs
    injection hs with hs _
    injection hs with hl hg
    subst hl; subst hg
    have hl0 : Dl t = [] := List.length_eq_zero_iff.1 hlen
    refine ⟨hist ++ [((w.locals t).stats, (w.locals t).hands)], Dr ++ Dl t, _,
      h.thread (D' := Dl t) ?_ ?_ ?_ ?_ ?_ ?_ (h.loc t ht) (h.fresh t ht) hlen (h.ids t ht) ?_ (h.legalL t ht) ?_ hout ?_, rfl, by rw [hl0]⟩
    · rw [applyFlushes_snoc, ← h.res]
      show updateResults _ _ s.calcExact _ _ _ = _
      rw [hce]
    · show (w.shared.sent ++ [_]).length = _
      rw [List.length_append, List.length_append, h.sent]; rfl
    · intro x hx
      rcases List.mem_append.1 hx with hx | hx
      · exact h.hids x hx
      · rw [List.mem_singleton] at hx; subst hx; exact h.ids t ht
    · intro x hx
      rcases List.mem_append.1 hx with hx | hx
      · exact h.hbatch x hx
      · rw [List.mem_singleton] at hx; subst hx; exact ⟨Dl t, h.legalL t ht, h.loc t ht⟩
    · rw [List.map_append, List.sum_append, h.hsum, showsFull_append, ← h.loc t ht]; simp
    · intro x hx
      rcases List.mem_append.1 hx with hx | hx
      · exact h.hcount x hx
      · rw [List.mem_singleton] at hx; subst hx; right; exact h.fresh t ht hl0
    · intro x hx
      rcases List.mem_append.1 hx with hx | hx
      · exact h.legalR x hx
      · exact h.legalL t ht x hx
    · intro hx; rcases hx with hx | hx <;> cases hx
    · exact fun hx => by cases hx
  | done => exact absurd hc hpc.1
  | panicked => exact absurd hc hpc.2

/-- Every step keeps the invariant. -/
theorem McInv.step (hr : McReady ranges b d s) {w w' : McWorld} {hist : List (Batch × HandStats)}
    {Dr : List (List WHand × List Nat)} {Dl : Nat → List (List WHand × List Nat)} (h : McInv sqrt ranges b d s r0 nT w hist Dr Dl)
    (hstep : McStep sqrt target s nT w w') : ∃ hist' Dr' Dl', McInv sqrt ranges b d s r0 nT w' hist' Dr' Dl' := by
  cases hstep with
  | cancel => exact ⟨hist, Dr, Dl, h.res, h.sent, h.hids, h.hbatch, h.hsum, h.hcount, h.loc, h.fresh, h.len, h.ids, h.legalR, h.legalL, h.walk,
      h.outside, h.fine⟩
  | thread t ht hpc ds l g hs =>
    obtain ⟨hist', Dr', Dl', h1, _⟩ := h.moves hr ht hpc hs
    exact ⟨hist', Dr', Dl', h1⟩

theorem McInv.steps (hr : McReady ranges b d s) {cancelled : Bool} {w : McWorld}
    (hs : McSteps sqrt target s nT (McWorld.init s r0 cancelled) w) :
    ∃ hist Dr Dl, McInv sqrt ranges b d s r0 nT w hist Dr Dl := by
  induction hs with
  | refl => exact ⟨_, _, _, McInv.init sqrt ranges b d s r0 nT cancelled⟩
  | step _ hstep ih =>
    obtain ⟨_, _, _, h⟩ := ih
    exact h.step hr hstep

/-- A complete run of the random simulation that returned results. -/
structure McRun (sqrt : ℚ → ℚ) (ranges : List (List Combo)) (b d : Nat) (r : Results) (s : Sim) (flag : Nat) (r0 : Results)
    (hist : List (Batch × HandStats)) (sd : List (List WHand × List Nat)) : Prop where
  ready : McReady ranges b d s
  start : startResults s = some (r0, flag)
  final : r = finishResults s flag (applyFlushes sqrt s.nPlayers false hist r0)
  ids : ∀ x ∈ hist, IdPlayers s.nPlayers x.1
  batches : ∀ x ∈ hist, ∃ sd : List (List WHand × List Nat), (∀ y ∈ sd, Legal ranges b d y) ∧ Pokers.full x = showsFull sd
  sum : (hist.map full).sum = showsFull sd
  count : ∀ x ∈ hist, x.1.evalCount = 4096 ∨ x = (Batch.init s.nPlayers, HandStats.init)
  legal : ∀ x ∈ sd, Legal ranges b d x

theorem approx_run {ranges : List (List Combo)} {b d nT : Nat} {cancelled : Bool} {r : Results} {sent : List Nat}
    (hwf : ∀ r ∈ ranges, WfRange r) (hb : CardMask b) (hd : CardMask d)
    (h : ApproxEquity sqrt ranges b d nT target cancelled (.ok r) sent) :
    ∃ s flag r0 hist sd, McRun sqrt ranges b d r s flag r0 hist sd ∧ sent.length = hist.length := by
  obtain ⟨p, hp, h⟩ := h
  cases p with
  | error e => cases h.1
  | ok s =>
    obtain ⟨r0, flag, w, h1, h2, h3, h4, h5⟩ := h
    have hr : McReady ranges b d s := ⟨hwf, hb, hd, hp⟩
    obtain ⟨hist, Dr, Dl, hi⟩ := McInv.steps hr h2
    injection h4 with h4
    exact ⟨s, flag, r0, hist, Dr, ⟨hr, h1, by rw [h4, hi.res], hi.hids, hi.hbatch, hi.hsum, hi.hcount, hi.legalR⟩, by rw [h5, hi.sent]⟩

variable {r : Results} {flag : Nat} {hist : List (Batch × HandStats)} {sd : List (List WHand × List Nat)}

theorem McRun.full (h : McRun sqrt ranges b d r s flag r0 hist sd) : trunc s.nPlayers (resFull r) = trunc s.nPlayers (showsFull sd) := by
  rw [h.final, finishResults_full, applyFlushes_full _ _ _ _ _ h.ids, (startResults_counts h.start).2.2.1, map_zero, zero_add,
    ← h.sum, map_list_sum, List.map_map]
  rfl

theorem McRun.wins (h : McRun sqrt ranges b d r s flag r0 hist sd) : ∀ p < s.nPlayers, r.wins p = r.winsByMask (2 ^ p) := by
  obtain ⟨f1, _, f3, _⟩ := finishResults_counts s flag (applyFlushes sqrt s.nPlayers false hist r0)
  obtain ⟨g1, _, g3, _⟩ := startResults_counts h.start
  have hn := h.ready.fields.1
  have h9 := h.ready.fields.2.2.2.2.2.2.1
  intro p hp
  rw [h.final, f1, f3]
  refine applyFlushes_wins (by omega) (fun p hp => ?_) h.ids p hp
  rw [g1 p]
  exact (congrFun (congrArg (fun x : FT => x.1.1) g3) (2 ^ p)).symm

theorem McRun.counts (h : McRun sqrt ranges b d r s flag r0 hist sd) :
    CountsOf ranges.length r sd ∧ r.evalCount = sd.length := by
  have hn := h.ready.fields.1
  have hf := h.full
  have hw := h.wins
  rw [hn] at hf hw
  refine ⟨CountsOf.of_tally (fun x hx => ?_) (congrArg Prod.fst hf) hw, congrArg Prod.snd hf⟩
  exact (deals_wf h.ready.wf (h.legal x hx).1).2.1

end

end Pokers
