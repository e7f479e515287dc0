import Verif.Proofs.CancelEnds
import Verif.Proofs.KnownHands
import Verif.Props.Checks
import Verif.Props.Release
import Verif.Props.ReleaseMc
/-!
# C81: when a thread or the callback panics

A thread that panics with a lock poisons it, and the threads that ask for the lock afterwards panic too.  The earlier theorems with
locks (C62, C66) are about the model in which nothing panics; those about a debug build (C51, C59, C68) say which results a call can
return, but not what happens to the other calls.  Here both builds of both functions have locks, a channel, and a callback that may
panic.
-/
namespace Pokers
open Spec

section
variable {ranges : List (List Combo)} {b d nT : Nat} {cancelled stopped : Bool} {cb : CallbackP} {calls : List Nat}

/-! ## The exact calculation in a debug build -/

/-- C81: what `exact_equity` returns in a debug build with locks is a result of the model with atomic steps, and the callback has been
called with the messages of that run, in their order. -/
theorem C81_debug_returned {res : Except SimulatorError Results}
    (h : ExactDebug ranges b d nT cancelled stopped cb (.returned res) calls) : ExactEquityD ranges b d nT cancelled stopped res calls := by
  unfold ExactDebug at h
  unfold ExactEquityD
  cases hp : prepareExact ranges b d with
  | error e => rw [hp] at h; simp only at h ⊢; cases h.1; exact ⟨rfl, h.2⟩
  | ok s =>
    rw [hp] at h
    simp only at h ⊢
    split at h
    · cases h.1
    · rename_i r0 flag hst
      rcases h with ⟨ds, total, size, k, x, h1, h2, h3, h4, ⟨h5, r, h6, h7⟩, h8, h9⟩ | ⟨_, _, h, _⟩
      · obtain ⟨v, j, g1, g2, g3, g4, g5⟩ := h4.returned (exactProgram_lawful _ _ _ _ _ _) h5
        exact ⟨r0, flag, ds, total, size, v.world, r, hst, h1, h2, h3, exactDebug_steps g1, fun t ht => kind_done.1 (g5 t ht),
          (congrArg _ g2).trans h6, h7, h8.trans g3.symm, h9.trans g4.symm⟩
      · cases h

/-- C81: and with a callback that does not panic all of them are returned. -/
theorem C81_debug_all (hcb : ∀ c m, cb c m ≠ none) {res : Except SimulatorError Results}
    (h : ExactEquityD ranges b d nT cancelled stopped res calls) :
    ∃ stopped', ExactDebug ranges b d nT cancelled stopped' cb (.returned res) calls ∧ ((∀ c m, cb c m = some false) → stopped' = stopped) := by
  unfold ExactEquityD at h
  unfold ExactDebug
  cases hp : prepareExact ranges b d with
  | error e => rw [hp] at h; simp only at h ⊢; exact ⟨stopped, ⟨by rw [h.1], h.2⟩, fun _ => rfl⟩
  | ok s =>
    rw [hp] at h
    simp only at h ⊢
    obtain ⟨r0, flag, ds, total, size, w, r, h0, h1, h2, h3, h4, h5, h6, h7, h8, h9⟩ := h
    obtain ⟨j, hj⟩ := debug_stepsC h4
    obtain ⟨k, x, g1, g2, g3, g4, g5⟩ := Program.Steps.call (exactProgram_lawful _ _ _ _ _ _) hcb hj fun t ht => kind_done.2 (h5 t ht)
    rw [h0]
    exact ⟨x.threads.stopped, Or.inl ⟨ds, total, size, k, x, h1, h2, h3, g1, ⟨g2, r, (congrArg _ g3).trans h6, h7⟩, h8.trans g4.symm, rfl⟩,
      fun hf => (g5 hf).trans h9.symm⟩

/-- C81: a call in a debug build always ends, after at most `64 * total + 72 * nT` steps (of its threads and receptions of messages):
there is no deadlock, also after panics of threads and of the callback. -/
theorem C81_debug_ends {s : Sim} {ds : List DividerU64} {total size m : Nat} {r0 : Results} {k : Nat} {x : Call Local Results}
    (h : Call.Steps (exactDebug s ds total size) nT cb (Call.init (Local.init m) r0 cancelled) k x) :
    k ≤ 64 * total + 72 * nT ∧ ((∀ y, ¬ Call.Step (exactDebug s ds total size) nT cb x y) →
      Call.Returns (exactDebug s ds total size) nT x ∨ Call.Panics (exactDebug s ds total size) nT x) := by
  refine exact_ends (fun pos _ e he => ?_) h
  unfold fits at he
  split at he
  · cases he; omega
  · cases he

/-- C81: so there is an end for every input and callback. -/
theorem C81_debug_exists (hwf : ∀ r ∈ ranges, WfRange r) (hT : 0 < nT) (cancelled : Bool) (cb : CallbackP) :
    ∃ e calls stopped, ExactDebug ranges b d nT cancelled stopped cb e calls ∧ ((∀ c m, cb c m ≠ some true) → stopped = cancelled) := by
  unfold ExactDebug
  cases hp : prepareExact ranges b d with
  | error e => exact ⟨_, _, cancelled, ⟨rfl, rfl⟩, fun _ => rfl⟩
  | ok s =>
    simp only
    obtain ⟨⟨r0, flag⟩, hst⟩ := Option.isSome_iff_exists.1 (C68_start hwf hp).2
    rw [hst]
    simp only
    cases h1 : s.fastDividers with
    | none => exact ⟨_, _, cancelled, Or.inr ⟨hT, Or.inl rfl, rfl, rfl⟩, fun _ => rfl⟩
    | some ds =>
    cases h2 : s.preflopComboCount with
    | none => exact ⟨_, _, cancelled, Or.inr ⟨hT, Or.inr (Or.inl rfl), rfl, rfl⟩, fun _ => rfl⟩
    | some total =>
    cases h3 : s.reserveSize with
    | none => exact ⟨_, _, cancelled, Or.inr ⟨hT, Or.inr (Or.inr rfl), rfl, rfl⟩, fun _ => rfl⟩
    | some size =>
      obtain ⟨k, x, g1, g2, g3⟩ := Call.Steps.stop (64 * total + 72 * nT) (fun k x h => (C81_debug_ends h).1)
        (Call.Steps.refl (P := exactDebug s ds total size) (nThreads := nT) (cb := cb) (x := Call.init (Local.init s.nPlayers) r0 cancelled))
      have hs : (∀ c m, cb c m ≠ some true) → x.threads.stopped = cancelled := g3 rfl
      rcases (C81_debug_ends g1).2 g2 with hx | hx
      · cases hf : finishResultsC s flag x.threads.results with
        | none => exact ⟨.panicked, _, _, Or.inl ⟨ds, total, size, k, x, rfl, rfl, rfl, g1, Or.inr ⟨hx, hf⟩, rfl, rfl⟩, hs⟩
        | some r => exact ⟨.returned (.ok r), _, _, Or.inl ⟨ds, total, size, k, x, rfl, rfl, rfl, g1, ⟨hx, r, hf, rfl⟩, rfl, rfl⟩, hs⟩
      · exact ⟨.panicked, _, _, Or.inl ⟨ds, total, size, k, x, rfl, rfl, rfl, g1, Or.inl hx, rfl, rfl⟩, hs⟩

/-- C81: if all showdowns together weigh less than `2^64` no call in a debug build panics, unless its callback does. -/
theorem C81_debug_no_panic (hwf : ∀ r ∈ ranges, WfRange r) (hb : CardMask b) (hd : CardMask d) (hS : Small ranges b d) (hR : Room ranges b d)
    (hcb : ∀ c m, cb c m ≠ none) : ¬ ExactDebug ranges b d nT cancelled stopped cb .panicked calls := by
  intro h
  unfold ExactDebug at h
  cases hp : prepareExact ranges b d with
  | error e => rw [hp] at h; cases h.1
  | ok s =>
    rw [hp] at h
    simp only at h
    obtain ⟨ds, total, size, hr, hroom⟩ := ready_exists hwf hb hd hp (hR s hp)
    obtain ⟨hst, hsome⟩ := C68_start hwf hp
    obtain ⟨⟨r0, flag⟩, hst'⟩ := Option.isSome_iff_exists.1 hsome
    rw [hst'] at h
    simp only at h
    have h0 : startResults s = some (r0, flag) := hst.symm.trans hst'
    rcases h with ⟨ds', total', size', k, x, h1, h2, h3, h4, h5, _⟩ | ⟨_, h, _⟩
    · cases hr.dividers.symm.trans h1
      cases hr.count.symm.trans h2
      cases hr.batch.symm.trans h3
      rcases h5 with ⟨_, h5 | ⟨_, h5⟩⟩ | ⟨h5, h6⟩
      · rw [h4.total hcb] at h5; cases h5
      · obtain ⟨v, j, g1, t, ht, g2⟩ := h4.root (exactProgram_lawful _ _ _ _ _ _) h5
        exact C51_no_panic hr hS h0 hroom (exactDebug_steps g1 : StepsC s ds total size nT (World.init s r0 cancelled) v.world) t
          (kind_panicked.1 g2)
      · obtain ⟨v, j, g1, g2, _, _, g5⟩ := h4.returned (exactProgram_lawful _ _ _ _ _ _) h5
        have := finish_some hwf hb hd hS.toSmallDeals hp h0 h1 h2 h3 (exactDebug_steps g1 : StepsC s ds total size nT (World.init s r0 cancelled) v.world)
          fun t ht => kind_done.1 (g5 t ht)
        rw [← g2] at h6
        cases this.symm.trans h6
    · rw [hr.dividers, hr.count, hr.batch] at h
      rcases h with h | h | h <;> cases h

/-- C81: two players: whatever the ranges, the board and the dead cards, a debug build does not panic. -/
theorem C81_debug_two_players (hwf : ∀ r ∈ ranges, WfRange r) (hb : CardMask b) (hd : CardMask d) (h2 : ranges.length = 2)
    (h100 : ∀ r ∈ ranges, ∀ c ∈ r, c.w ≤ 100) (hr : ∀ r ∈ ranges, r.length ≤ 1326) (hcb : ∀ c m, cb c m ≠ none) :
    ¬ ExactDebug ranges b d nT cancelled stopped cb .panicked calls := by
  refine C81_debug_no_panic hwf hb hd (C51_two_players h2 h100 hr) (room_of_prod ?_) hcb
  match ranges, h2, hr with
  | [x, y], _, hr =>
    have h1 := hr x (by simp)
    have h2 := hr y (by simp)
    have h3 : x.length * y.length ≤ 1326 * 1326 := Nat.mul_le_mul h1 h2
    simp only [List.map_cons, List.map_nil, List.prod_cons, List.prod_nil, Nat.mul_one]
    omega

/-- Two hands on the flop, two threads: the call returns, with any callback that does not panic. -/
example (cb : CallbackP) (hcb : ∀ c m, cb c m ≠ none) : (∃ r calls stopped, ExactDebug twoHands flopMask 0 2 false stopped cb (.returned (.ok r)) calls) ∧
    ∀ stopped calls, ¬ ExactDebug twoHands flopMask 0 2 false stopped cb .panicked calls := by
  have hwf : ∀ r ∈ twoHands, WfRange r := by unfold WfRange twoHands; decide
  have h100 : ∀ r ∈ twoHands, ∀ c ∈ r, c.w ≤ 100 := by unfold twoHands; decide
  have hb : CardMask flopMask := by unfold CardMask; decide
  obtain ⟨r, sent, h⟩ := two_run 2 false
  obtain ⟨st, h, _⟩ := C81_debug_all hcb ((C68_exact hwf hb zero_deck (C51_two_players rfl h100 (by unfold twoHands; decide)) _ _).2 h)
  exact ⟨⟨r, sent, st, h⟩, fun stopped calls => C81_debug_two_players hwf hb zero_deck rfl h100 (by unfold twoHands; decide) hcb⟩

theorem Hands.ranges_wf {cs : List Combo} (h : Hands cs) : ∀ r ∈ cs.map (fun c => [c]), WfRange r := by
  intro r hr
  obtain ⟨k, hk, rfl⟩ := List.mem_map.1 hr
  intro c hc
  rw [List.mem_singleton] at hc
  subst hc
  exact h.wf c hk

theorem Hands.smallDeals {cs : List Combo} (h : Hands cs) (h8 : cs.length ≤ 8) : SmallDeals (cs.map fun c => [c]) b d := by
  have h100 : ∀ r ∈ cs.map (fun c => [c]), ∀ c ∈ r, c.w ≤ 100 := by
    intro r hr c hc
    obtain ⟨k, hk, rfl⟩ := List.mem_map.1 hr
    rw [List.mem_singleton] at hc
    subst hc
    exact (h.full c hk).le
  refine ⟨h100, fun dd hdd => ?_⟩
  have := deal_le h100 hdd
  rw [List.length_map] at this
  have h8 : 100 ^ cs.length ≤ 100 ^ 8 := Nat.pow_le_pow_right (by decide) h8
  omega

/-- C81 (finding): seven or eight known hands of weight 100 before the flop: in a debug build every call that is not cancelled ends with
a panic, whatever the threads and the callback do. -/
theorem C81_seven_hands {cs : List Combo} (h : Hands cs) (h7 : cs.length = 7 ∨ cs.length = 8) (hT : 0 < nT) {s : Sim}
    (hok : prepareExact (cs.map fun c => [c]) 0 0 = .ok s) {e : Ended (Except SimulatorError Results)}
    (he : ExactDebug (cs.map fun c => [c]) 0 0 nT cancelled false cb e calls) : e = .panicked := by
  cases e with
  | panicked => rfl
  | returned res =>
    exfalso
    have hD := C81_debug_returned he
    cases res with
    | error err => unfold ExactEquityD at hD; rw [hok] at hD; obtain ⟨_, _, _, _, _, _, _, _, _, _, _, _, _, _, h, _⟩ := hD; cases h
    | ok r =>
      exact C51_seven_hands h h7 hT r calls
        ((C68_exact_stages h.ranges_wf zero_deck zero_deck (h.smallDeals (by omega)) _ _).1 hD)

/-- C81 (finding): and such an end exists for every callback that does not cancel. -/
theorem C81_seven_panics {cs : List Combo} (h : Hands cs) (h7 : cs.length = 7 ∨ cs.length = 8) (hT : 0 < nT) {s : Sim}
    (hok : prepareExact (cs.map fun c => [c]) 0 0 = .ok s) (hcb : ∀ c m, cb c m ≠ some true) :
    ∃ calls, ExactDebug (cs.map fun c => [c]) 0 0 nT false false cb .panicked calls := by
  obtain ⟨e, calls, st, h1, h2⟩ := C81_debug_exists (b := 0) (d := 0) h.ranges_wf hT false cb
  have h2 := h2 hcb
  subst h2
  have := C81_seven_hands h h7 hT hok h1
  subst this
  exact ⟨calls, h1⟩

theorem seven_prepared : ∃ s, prepareExact (sevenHands.map fun c => [c]) 0 0 = .ok s := by
  refine ⟨Sim.new ((sevenHands.map fun c => [c]).map fun h => removeConflictingCombos h 0 0)
    (CombinedRange.fromRanges ((sevenHands.map fun c => [c]).map fun h => removeConflictingCombos h 0 0)) 0 0 true, ?_⟩
  unfold prepareExact
  rw [show validate (List.length _) _ 0 = none by decide +kernel]
  show (if _ then _ else _) = _
  rw [if_neg (by decide +kernel)]

/-- Seven pairs, four threads and a callback that does nothing: there is an end, and every end is a panic. -/
example : (∃ calls, ExactDebug (sevenHands.map fun c => [c]) 0 0 4 false false (fun _ _ => some false) .panicked calls) ∧
    ∀ e calls, ExactDebug (sevenHands.map fun c => [c]) 0 0 4 false false (fun _ _ => some false) e calls → e = .panicked := by
  obtain ⟨s, hs⟩ := seven_prepared
  exact ⟨C81_seven_panics seven_hands (Or.inl rfl) (by decide) hs (fun _ _ => by decide),
    fun e calls h => C81_seven_hands seven_hands (Or.inl rfl) (by decide) hs h⟩

/-- C81: when a thread panics while it holds the results, they are poisoned: nothing is added to them any more, nothing is sent, and no
thread ends but with a panic. -/
theorem C81_poison {s : Sim} {ds : List DividerU64} {total size m : Nat} {r0 : Results} {i j t : Nat} {x y z : Call Local Results}
    (hx : Call.Steps (exactDebug s ds total size) nT cb (Call.init (Local.init m) r0 cancelled) i x) (ht : t < nT)
    (hm : (exactDebug s ds total size).Move t x.threads y.threads) (howner : x.threads.resOwner = some t)
    (hpanic : (y.threads.locals t).pc = .panicked) (hz : Call.Steps (exactDebug s ds total size) nT cb y j z) :
    z.threads.results = y.threads.results ∧ z.threads.sent = x.threads.sent ∧
    ∀ u, (z.threads.locals u).pc = .done → (x.threads.locals u).pc = .done := by
  obtain ⟨g1, g2, g3⟩ := hx.poisoned (fun l b l' => exactProgram_compute) (fun l p x _ => exactProgram_reserve)
    (fun l => show (l.afterUpdate s.nPlayers).pc.kind ≠ .panicked by unfold Local.afterUpdate; split <;> exact fun h => nomatch h)
    (exactProgram_lawful _ _ _ _ _ _) ht hm howner (kind_panicked.2 hpanic) hz
  exact ⟨g1, g2, fun u hu => kind_done.1 (g3 u (kind_done.2 hu))⟩

/-- Results that are too large from the start: the first thread panics with the lock on the results, after which nothing is sent. -/
example (s : Sim) (ds : List DividerU64) (r : Results) (hr : r.evalCount = 2 ^ 64) : ∃ i x y,
    Call.Steps (exactDebug s ds 0 100) 2 (fun _ _ => none) (Call.init (Local.init s.nPlayers) r false) i x ∧
    (exactDebug s ds 0 100).Move 0 x.threads y ∧ x.threads.resOwner = some 0 ∧ (y.locals 0).pc = .panicked ∧ y.resBad = true := by
  have hmerge : ∀ b h, updateResultsC id s.nPlayers s.calcExact b h r = none := by
    intro b h
    unfold updateResultsC
    cases (List.range (NUM_HANDS * s.nPlayers)).foldlM (fun (hr : Nat → UnitResults) k =>
      ((hr k).addAssignC (h k)).map (Function.update hr k)) r.handResults with
    | none => rfl
    | some hand =>
      cases mergeMasksC s.nPlayers b ⟨r.wins, r.ties, r.winsByMask, 0, 0⟩ with
      | none => rfl
      | some m =>
        have : fits 64 (r.evalCount + b.evalCount) = none := by
          unfold fits
          rw [if_neg (by omega)]
        simp only [Option.bind_eq_bind, Option.bind_some, this, Option.bind_none]
  have h1 := Call.Step.thread (P := exactDebug s ds 0 100) (nThreads := 2) (cb := fun _ _ => none) (x := Call.init (Local.init s.nPlayers) r false) (t := 0) (by decide)
    (.lockPos rfl rfl rfl rfl)
  have h3 := Call.Steps.step (.step .refl h1) (.thread (t := 0) (by decide)
    (.reserve (x := ({ Local.init s.nPlayers with pc := .final }, 0)) (by simp only [Function.update_self]) rfl))
  refine ⟨_, _, _, .step h3 (.thread (t := 0) (by decide) (.lockRes (by simp only [Function.update_self]) ?_ rfl rfl)),
    .mergeFail r (by simp only [Function.update_self]) (hmerge _ _), rfl, ?_, rfl⟩
  · simp only [Function.update_self]
    rfl
  · simp only [LockPool.panic, Function.update_self]
    rfl

/-- C81: a call that returns a result has called its callback, and the callback has not panicked in any of these calls. -/
theorem C81_callback (hT : 0 < nT) {r : Results} (h : ExactDebug ranges b d nT cancelled stopped cb (.returned (.ok r)) calls) :
    calls ≠ [] ∧ ∀ c m, c ++ [m] <+: calls → cb c m ≠ none := by
  unfold ExactDebug at h
  split at h
  · cases h.1
  · split at h
    · cases h.1
    · rcases h with ⟨ds, total, size, k, x, _, _, _, h4, ⟨h5, _⟩, h8, _⟩ | ⟨_, _, h, _⟩
      · subst h8
        obtain ⟨g1, g2⟩ := h4.heard (fun l b l' => exactProgram_compute) (fun l p x _ => exactProgram_reserve) (exactProgram_lawful _ _ _ _ _ _) h5
        exact ⟨g2 (fun h => nomatch h) hT, g1⟩
      · cases h

/-- C81: in particular a callback that always panics is noticed. -/
theorem C81_callback_panics (hT : 0 < nT) (r : Results) :
    ¬ ExactDebug ranges b d nT cancelled stopped (fun _ _ => none) (.returned (.ok r)) calls := by
  intro h
  obtain ⟨h1, h2⟩ := C81_callback hT h
  match calls, h1 with
  | m :: rest, _ => exact h2 [] m ⟨rest, rfl⟩ rfl

/-- Such a callback: there is an end, and it is a panic. -/
example : ∃ calls stopped, ExactDebug twoHands flopMask 0 2 false stopped (fun _ _ => none) .panicked calls := by
  obtain ⟨e, calls, st, h, _⟩ := C81_debug_exists (ranges := twoHands) (b := flopMask) (d := 0) (nT := 2)
    (by unfold WfRange twoHands; decide) (by decide) false fun _ _ => none
  cases e with
  | panicked => exact ⟨calls, st, h⟩
  | returned res =>
    cases res with
    | ok r => exact absurd h (C81_callback_panics (by decide) r)
    | error err =>
      obtain ⟨r, sent, h'⟩ := two_run 2 false
      unfold ExactEquity at h'
      unfold ExactDebug at h
      split at h
      · rename_i hp; rw [hp] at h'; cases h'.1
      · split at h
        · cases h.1
        · rcases h with ⟨_, _, _, _, _, _, _, _, _, ⟨_, _, _, h⟩, _⟩ | ⟨_, _, h, _⟩ <;> cases h

/-! ## The exact calculation in a release build -/

/-- C81: what `exact_equity` returns in a release build with locks is a result of the model with atomic steps (C75). -/
theorem C81_release_returned {res : Except SimulatorError Results}
    (h : ExactRelease ranges b d nT cancelled stopped cb (.returned res) calls) : ExactEquityR ranges b d nT cancelled stopped res calls := by
  unfold ExactRelease at h
  unfold ExactEquityR
  cases hp : prepareExact ranges b d with
  | error e => rw [hp] at h; simp only at h ⊢; cases h.1; exact ⟨rfl, h.2⟩
  | ok s =>
    rw [hp] at h
    simp only at h ⊢
    obtain ⟨r0, flag, ds, size, k, x, h1, h2, h3, h4, ⟨h5, r, h6, h7⟩, h8, h9⟩ := h
    obtain ⟨v, j, g1, g2, g3, g4, g5⟩ := h4.returned (exactProgram_lawful _ _ _ _ _ _) h5
    refine ⟨r0, flag, ds, size, v.world, h1, h2, h3, exactRelease_steps g1, fun t ht => kind_done.1 (g5 t ht), ?_, h8.trans g3.symm, h9.trans g4.symm⟩
    rw [h7, ← Option.some.inj h6]
    exact congrArg (fun r => Except.ok (finishResultsF s flag r)) g2.symm

/-- C81: and with a callback that does not panic all of them are returned. -/
theorem C81_release_all (hcb : ∀ c m, cb c m ≠ none) {res : Except SimulatorError Results}
    (h : ExactEquityR ranges b d nT cancelled stopped res calls) :
    ∃ stopped', ExactRelease ranges b d nT cancelled stopped' cb (.returned res) calls ∧ ((∀ c m, cb c m = some false) → stopped' = stopped) := by
  unfold ExactEquityR at h
  unfold ExactRelease
  cases hp : prepareExact ranges b d with
  | error e => rw [hp] at h; simp only at h ⊢; exact ⟨stopped, ⟨by rw [h.1], h.2⟩, fun _ => rfl⟩
  | ok s =>
    rw [hp] at h
    simp only at h ⊢
    obtain ⟨r0, flag, ds, size, w, h1, h2, h3, h4, h5, h7, h8, h9⟩ := h
    obtain ⟨j, hj⟩ := release_stepsR h4
    obtain ⟨k, x, g1, g2, g3, g4, g5⟩ := Program.Steps.call (exactProgram_lawful _ _ _ _ _ _) hcb hj fun t ht => kind_done.2 (h5 t ht)
    refine ⟨x.threads.stopped, ⟨r0, flag, ds, size, k, x, h1, h2, h3, g1, ⟨g2, _, rfl, ?_⟩, h8.trans g4.symm, rfl⟩,
      fun hf => (g5 hf).trans h9.symm⟩
    rw [h7]
    exact congrArg (fun r => Except.ok (finishResultsF s flag r)) g3.symm

/-- C81: a call in a release build always ends, without a deadlock, if the position counter does not overflow. -/
theorem C81_release_ends {s : Sim} {ds : List DividerU64} {total size m : Nat} (hroom : total + size < 2 ^ 64) {r0 : Results} {k : Nat}
    {x : Call Local Results} (h : Call.Steps (exactRelease s ds total size) nT cb (Call.init (Local.init m) r0 cancelled) k x) :
    k ≤ 64 * total + 72 * nT ∧ ((∀ y, ¬ Call.Step (exactRelease s ds total size) nT cb x y) →
      Call.Returns (exactRelease s ds total size) nT x ∨ Call.Panics (exactRelease s ds total size) nT x) := by
  refine exact_ends (fun pos hpos e he => ?_) h
  have := Option.some.inj he
  rw [← this]
  unfold wrap
  rw [Nat.mod_eq_of_lt (by omega)]
  omega

/-- C81: and it never panics, unless its callback does: also not when counters overflow. -/
theorem C81_release_no_panic (hwf : ∀ r ∈ ranges, WfRange r) (hb : CardMask b) (hd : CardMask d) (hR : Room ranges b d)
    (hcb : ∀ c m, cb c m ≠ none) : ¬ ExactRelease ranges b d nT cancelled stopped cb .panicked calls := by
  intro h
  unfold ExactRelease at h
  cases hp : prepareExact ranges b d with
  | error e => rw [hp] at h; cases h.1
  | ok s =>
    rw [hp] at h
    simp only at h
    obtain ⟨ds, total, size, hr, hroom⟩ := ready_exists hwf hb hd hp (hR s hp)
    obtain ⟨r0, flag, ds', size', k, x, h0, h1, h3, h4, h5, _⟩ := h
    cases hr.dividers.symm.trans h1
    cases hr.batch.symm.trans h3
    rw [preflopComboCountR_eq hr.count] at h4 h5
    rcases h5 with ⟨_, h5 | ⟨_, h5⟩⟩ | ⟨_, h6⟩
    · rw [h4.total hcb] at h5; cases h5
    · obtain ⟨v, j, g1, t, ht, g2⟩ := h4.root (exactProgram_lawful _ _ _ _ _ _) h5
      obtain ⟨w, hw, hm⟩ := StepsR.follow hr hroom h0 (exactRelease_steps g1 : StepsR s ds total size nT (World.init s r0 cancelled) v.world)
      exact Steps.no_panic hr.processes hr.size_pos hroom hw t ((hm.locals t).pc.symm.trans (kind_panicked.1 g2))
    · cases h6

/-- C81: so every call in a release build has an end, and with a callback that does not panic it returns. -/
theorem C81_release_exists (hwf : ∀ r ∈ ranges, WfRange r) (hb : CardMask b) (hd : CardMask d) (hR : Room ranges b d) (cancelled : Bool) (cb : CallbackP) :
    ∃ e calls stopped, ExactRelease ranges b d nT cancelled stopped cb e calls ∧ ((∀ c m, cb c m ≠ none) → ∃ res, e = .returned res) := by
  have key : ∃ e calls stopped, ExactRelease ranges b d nT cancelled stopped cb e calls := by
    unfold ExactRelease
    cases hp : prepareExact ranges b d with
    | error e => exact ⟨_, _, cancelled, rfl, rfl⟩
    | ok s =>
      simp only
      obtain ⟨ds, total, size, hr, hroom⟩ := ready_exists hwf hb hd hp (hR s hp)
      obtain ⟨r0, flag, hst⟩ := hr.start_some
      rw [preflopComboCountR_eq hr.count]
      obtain ⟨k, x, g1, g2, _⟩ := Call.Steps.stop (64 * total + 72 * nT) (fun k x h => (C81_release_ends hroom h).1)
        (Call.Steps.refl (P := exactRelease s ds total size) (nThreads := nT) (cb := cb) (x := Call.init (Local.init s.nPlayers) r0 cancelled))
      rcases (C81_release_ends hroom g1).2 g2 with hx | hx
      · exact ⟨.returned (.ok _), _, _, r0, flag, ds, size, k, x, hst, hr.dividers, hr.batch, g1, ⟨hx, _, rfl, rfl⟩, rfl, rfl⟩
      · exact ⟨.panicked, _, _, r0, flag, ds, size, k, x, hst, hr.dividers, hr.batch, g1, Or.inl hx, rfl, rfl⟩
  obtain ⟨e, calls, st, h⟩ := key
  refine ⟨e, calls, st, h, fun hcb => ?_⟩
  cases e with
  | returned res => exact ⟨res, rfl⟩
  | panicked => exact absurd h (C81_release_no_panic hwf hb hd hR hcb)

/-- C81: the callback of a call that returns a result has been called and has not panicked. -/
theorem C81_release_callback (hT : 0 < nT) {r : Results} (h : ExactRelease ranges b d nT cancelled stopped cb (.returned (.ok r)) calls) :
    calls ≠ [] ∧ ∀ c m, c ++ [m] <+: calls → cb c m ≠ none := by
  unfold ExactRelease at h
  split at h
  · cases h.1
  · obtain ⟨_, _, ds, size, k, x, _, _, _, h4, ⟨h5, _⟩, h8, _⟩ := h
    subst h8
    obtain ⟨g1, g2⟩ := h4.heard (fun l b l' => exactProgram_compute) (fun l p x _ => exactProgram_reserve) (exactProgram_lawful _ _ _ _ _ _) h5
    exact ⟨g2 (fun h => nomatch h) hT, g1⟩

/-- The seven hands for which every debug build panics: a release build returns. -/
example : ∃ res calls stopped, ExactRelease (sevenHands.map fun c => [c]) 0 0 4 false stopped (fun _ _ => some false) (.returned res) calls := by
  obtain ⟨e, calls, st, h, he⟩ := C81_release_exists (ranges := sevenHands.map fun c => [c]) (b := 0) (d := 0) (nT := 4) seven_hands.ranges_wf
    zero_deck zero_deck (room_of_prod (by decide)) false fun _ _ => some false
  obtain ⟨res, rfl⟩ := he fun _ _ => by decide
  exact ⟨res, calls, st, h⟩

/-! ## The random simulation in a debug build -/

variable {sqrt : ℚ → ℚ} {target : ℚ}

/-- C81: what `approx_equity` returns in a debug build with locks is a result of the model with atomic steps. -/
theorem C81_approx_debug_returned {res : Except SimulatorError Results}
    (h : ApproxDebug sqrt ranges b d nT target cancelled cb (.returned res) calls) :
    ApproxEquityD sqrt ranges b d nT target cancelled res calls := by
  obtain ⟨p, hp, h⟩ := h
  refine ⟨p, hp, ?_⟩
  cases p with
  | error e => simp only at h ⊢; cases h.1; exact ⟨rfl, h.2⟩
  | ok s =>
    simp only at h ⊢
    split at h
    · cases h.1
    · rename_i r0 flag hst
      obtain ⟨k, x, h4, ⟨h5, r, h6, h7⟩, h8⟩ := h
      obtain ⟨v, j, g1, g2, g3, g4, g5⟩ := h4.returned (approxProgram_lawful _ _ _ _ _) h5
      exact ⟨r0, flag, v.mcWorld, r, hst, approxDebug_steps g1, fun t ht => mcKind_done.1 (g5 t ht), (congrArg _ g2).trans h6, h7,
        h8.trans g3.symm⟩

/-- C81: and with a callback that does not panic all of them are returned. -/
theorem C81_approx_debug_all (hcb : ∀ c m, cb c m ≠ none) {res : Except SimulatorError Results}
    (h : ApproxEquityD sqrt ranges b d nT target cancelled res calls) :
    ApproxDebug sqrt ranges b d nT target cancelled cb (.returned res) calls := by
  obtain ⟨p, hp, h⟩ := h
  refine ⟨p, hp, ?_⟩
  cases p with
  | error e => simp only at h ⊢; exact ⟨by rw [h.1], h.2⟩
  | ok s =>
    simp only at h ⊢
    obtain ⟨r0, flag, w, r, h0, h4, h5, h6, h7, h8⟩ := h
    obtain ⟨j, hj⟩ := debug_mcStepsC h4
    obtain ⟨k, x, g1, g2, g3, g4, _⟩ := Program.Steps.call (approxProgram_lawful _ _ _ _ _) hcb hj fun t ht => mcKind_done.2 (h5 t ht)
    rw [h0]
    exact ⟨k, x, g1, ⟨g2, r, (congrArg _ g3).trans h6, h7⟩, h8.trans g4.symm⟩

/-- C81: a simulation in a debug build is never in a deadlock. -/
theorem C81_approx_debug_ends {s : Sim} (hr : McReady ranges b d s) {m : Nat} {r0 : Results} {k : Nat} {x : Call McLocal Results}
    (h : Call.Steps (approxDebug sqrt target s) nT cb (Call.init (McLocal.init m) r0 cancelled) k x)
    (hstuck : ∀ y, ¬ Call.Step (approxDebug sqrt target s) nT cb x y) :
    Call.Returns (approxDebug sqrt target s) nT x ∨ Call.Panics (approxDebug sqrt target s) nT x := by
  refine h.ended (approxProgram_lawful _ _ _ _ _) (fun u hu _ hk => ?_) hstuck
  obtain ⟨j, h1⟩ := h.moves
  have hf := approx_fine (fun l l' g g' ds hl hk hs => hl.stepC hr hk hs) (fun t => WalkFine.init b d s m) h1 u
  obtain ⟨ds, l', hs⟩ := hf.liveC (sqrt := sqrt) (target := target) hr hk ⟨r0, x.threads.stopped, []⟩
  exact ⟨l', _, ds, _, rfl, hs⟩

/-- C81: once it has been cancelled it ends after at most `164000` steps for each thread and one for each message not yet received,
whatever has panicked. -/
theorem C81_approx_debug_cancelled {s : Sim} {m : Nat} {r0 : Results} {i k : Nat} {x y : Call McLocal Results}
    (hx : Call.Steps (approxDebug sqrt target s) nT cb (Call.init (McLocal.init m) r0 cancelled) i x) (hs : x.threads.stopped = true)
    (hy : Call.Steps (approxDebug sqrt target s) nT cb x k y) : k ≤ 164000 * nT + (x.threads.sent.length - x.calls.length) :=
  cancelled_call (fun _ _ _ _ _ hk hg hs => mcStepC_measure hk hg hs) hx hs hy

/-- C81: it panics only when the callback does, or when the counters may overflow: not as long as the number of evaluations, plus one,
times `100` for each player is below `2^64`. -/
theorem C81_approx_debug_no_panic (hwf : ∀ r ∈ ranges, WfRange r) (hb : CardMask b) (hd : CardMask d) (h100 : ∀ r ∈ ranges, ∀ c ∈ r, c.w ≤ 100)
    (hcb : ∀ c m, cb c m ≠ none) (h : ApproxDebug sqrt ranges b d nT target cancelled cb .panicked calls) :
    ∃ s r0 flag w, PrepareApprox ranges b d (.ok s) ∧ startResults s = some (r0, flag) ∧
      McStepsC sqrt target s nT (McWorld.init s r0 cancelled) w ∧ 2 ^ 64 ≤ (w.evals nT + 1) * 100 ^ ranges.length := by
  obtain ⟨p, hp, h⟩ := h
  cases p with
  | error e => cases h.1
  | ok s =>
    simp only at h
    have hr : McReady ranges b d s := ⟨hwf, hb, hd, hp⟩
    obtain ⟨l1, l2, l3⟩ := hr.lists
    obtain ⟨r0, flag, hst⟩ := start_some_of (d := d) hwf (s := s) hr.fields.2.1 hr.fields.2.2.2.2.2.2.2.2.2 hr.hands
    rw [startResultsC_eq l1 l2 l3, hst] at h
    simp only at h
    obtain ⟨k, x, h4, h5, _⟩ := h
    refine ⟨s, r0, flag, ?_⟩
    rcases h5 with ⟨_, h5 | ⟨_, h5⟩⟩ | ⟨h5, h6⟩
    · rw [h4.total hcb] at h5; cases h5
    · obtain ⟨v, j, g1, t, ht, g2⟩ := h4.root (approxProgram_lawful _ _ _ _ _) h5
      refine ⟨v.mcWorld, hp, hst, approxDebug_steps g1, ?_⟩
      by_contra hn
      exact C59_no_panic hr h100 hst (approxDebug_steps g1 : McStepsC sqrt target s nT (McWorld.init s r0 cancelled) v.mcWorld) (by omega) ht
        (mcKind_panicked.1 g2)
    · obtain ⟨v, j, g1, g2, _, _, g5⟩ := h4.returned (approxProgram_lawful _ _ _ _ _) h5
      have := mc_finish_some hr (fun r hr c hc => (h100 r hr c hc).trans (by decide)) hst
        (approxDebug_steps g1 : McStepsC sqrt target s nT (McWorld.init s r0 cancelled) v.mcWorld) fun t ht => mcKind_done.1 (g5 t ht)
      rw [← g2] at h6
      cases this.symm.trans h6

/-- C81: when every player has a single hand, every thread makes at least one batch, also if the simulation has been cancelled before:
there are `4096` evaluations for each of them. -/
theorem C81_known_batches (hwf : ∀ r ∈ ranges, WfRange r) (hb : CardMask b) (hd : CardMask d) (h1 : ∀ r ∈ ranges, r.length ≤ 1)
    (hne : deals (specRanges ranges) (maskCards b ++ maskCards d) ≠ []) {r : Results}
    (h : ApproxEquity sqrt ranges b d nT target cancelled (.ok r) calls) : 4096 * nT ≤ r.evalCount := by
  obtain ⟨p, hp, h⟩ := h
  cases p with
  | error e => cases h.1
  | ok s =>
    obtain ⟨r0, flag, w, _, h3, h4, h5, _⟩ := h
    have hr : McReady ranges b d s := ⟨hwf, hb, hd, hp⟩
    have := known_batches hr (fun _ _ _ _ _ h => hr.known h1 hne h) h3
    have ha : afterCount w nT = nT := by
      unfold afterCount
      rw [List.countP_eq_length.2 fun t ht => ?_, List.length_range]
      rw [h4 t (List.mem_range.1 ht)]
      rfl
    rw [ha] at this
    injection h5 with h5
    rw [h5, (finishResults_counts s flag w.shared.results).2.2.2.1]
    exact this

/-- C81 (finding): known hands of weight 100 on any board: if the first batches of all threads together weigh `2^64` or more, which is
so for eight or nine players with any number of threads and for seven players with 46 threads, no simulation in a debug build returns a
result, whatever the threads, the target, the random numbers and the callback do. -/
theorem C81_known_hands {cs : List Combo} (h : Hands cs) (h0 : 0 < cs.length) (hb : CardMask b) (hd : CardMask d)
    (hne : deals (specRanges (cs.map fun c => [c])) (maskCards b ++ maskCards d) ≠ []) (hT : 2 ^ 64 ≤ 4096 * nT * 100 ^ cs.length)
    (r : Results) : ¬ ApproxDebug sqrt (cs.map fun c => [c]) b d nT target cancelled cb (.returned (.ok r)) calls := by
  intro hA
  have hC := (C68_approx_stages h.ranges_wf hb hd (fun r hr c hc => by
    obtain ⟨k, hk, rfl⟩ := List.mem_map.1 hr
    rw [List.mem_singleton] at hc
    subst hc
    rw [h.full c hk]
    decide) _ _).1 (C81_approx_debug_returned hA)
  have g1 := C59_known_hands h h0 hb hd hC
  have g2 := C81_known_batches h.ranges_wf hb hd (fun r hr => by
    obtain ⟨k, hk, rfl⟩ := List.mem_map.1 hr
    exact Nat.le_refl 1) hne (C59_returned h.ranges_wf hb hd hC).1
  have := Nat.mul_le_mul_right (100 ^ cs.length) g2
  omega

theorem Call.Steps.ofCancelled {L : Type} {P : Program L Results} {l : L} {r0 : Results} {k : Nat} {x : Call L Results}
    (h : Call.Steps P nT cb (Call.init l r0 true) k x) : Call.Steps P nT cb (Call.init l r0 cancelled) k x := by
  induction h with
  | refl => exact .cancel .refl
  | step _ h ih => exact .step ih h
  | cancel _ ih => exact .cancel ih

/-- C81: every simulation in a debug build can come to an end, for every callback: cancelling it suffices. -/
theorem C81_approx_debug_exists (hwf : ∀ r ∈ ranges, WfRange r) (hb : CardMask b) (hd : CardMask d) (cb : CallbackP) :
    ∃ e calls, ApproxDebug sqrt ranges b d nT target cancelled cb e calls := by
  cases hp : prepareExact ranges b d with
  | error e => exact ⟨_, _, _, C39_approx.2 hp, rfl, rfl⟩
  | ok s0 =>
    obtain ⟨s, hs⟩ := C39_approx_ok hp
    have hr : McReady ranges b d s := ⟨hwf, hb, hd, hs⟩
    cases h0 : startResultsC s with
    | none => exact ⟨.panicked, [], _, hs, by simp only [h0, and_self]⟩
    | some x =>
      obtain ⟨r0, flag⟩ := x
      obtain ⟨k, x, g1, g2, _⟩ := Call.Steps.stop (164000 * nT + 0)
        (fun k y h => C81_approx_debug_cancelled (sqrt := sqrt) (target := target) (s := s) (cb := cb) (x := Call.init (McLocal.init s.nPlayers) r0 true)
          (cancelled := true) .refl rfl h) .refl
      rcases C81_approx_debug_ends hr g1 g2 with hx | hx
      · cases hf : finishResultsC s flag x.threads.results with
        | none => exact ⟨.panicked, _, _, hs, by simp only [h0]; exact ⟨k, x, g1.ofCancelled, Or.inr ⟨hx, hf⟩, rfl⟩⟩
        | some r => exact ⟨.returned (.ok r), _, _, hs, by simp only [h0]; exact ⟨k, x, g1.ofCancelled, ⟨hx, r, hf, rfl⟩, rfl⟩⟩
      · exact ⟨.panicked, _, _, hs, by simp only [h0]; exact ⟨k, x, g1.ofCancelled, Or.inl hx, rfl⟩⟩

/-- C81 (finding): so such a simulation with known hands has an end, and every end is a panic. -/
theorem C81_known_panics {cs : List Combo} (h : Hands cs) (h0 : 0 < cs.length) (hb : CardMask b) (hd : CardMask d)
    (hne : deals (specRanges (cs.map fun c => [c])) (maskCards b ++ maskCards d) ≠ []) (hT : 2 ^ 64 ≤ 4096 * nT * 100 ^ cs.length)
    {s : Sim} (hok : prepareExact (cs.map fun c => [c]) b d = .ok s) :
    (∀ e calls, ApproxDebug sqrt (cs.map fun c => [c]) b d nT target cancelled cb e calls → e = .panicked) ∧
    ∃ calls, ApproxDebug sqrt (cs.map fun c => [c]) b d nT target cancelled cb .panicked calls := by
  have hall : ∀ e calls, ApproxDebug sqrt (cs.map fun c => [c]) b d nT target cancelled cb e calls → e = .panicked := by
    intro e calls he
    cases e with
    | panicked => rfl
    | returned res =>
      cases res with
      | ok r => exact absurd he (C81_known_hands h h0 hb hd hne hT r)
      | error err =>
        obtain ⟨p, hp, he⟩ := he
        cases p with
        | error err' => rw [C39_approx] at hp; rw [hok] at hp; cases hp
        | ok s' =>
          simp only at he
          split at he
          · cases he.1
          · obtain ⟨_, _, _, ⟨_, _, _, h⟩, _⟩ := he
            cases h
  obtain ⟨e, calls, he⟩ := C81_approx_debug_exists (sqrt := sqrt) (nT := nT) (target := target) (cancelled := cancelled) h.ranges_wf hb hd cb
  have := hall e calls he
  subst this
  exact ⟨hall, calls, he⟩

/-- Two hands on the flop: the simulation can return, after 12288 evaluations by three threads. -/
example (sqrt : ℚ → ℚ) (cb : CallbackP) (hcb : ∀ c m, cb c m ≠ none) :
    ∃ r calls, ApproxDebug sqrt twoHands flopMask 0 3 (1 / 100) false cb (.returned (.ok r)) calls ∧ r.evalCount = 12288 := by
  obtain ⟨r, sent, h, he⟩ := two_approx sqrt (1 / 100) 3 false
  exact ⟨r, sent, C81_approx_debug_all hcb (C68_approx (by unfold WfRange twoHands; decide) (by unfold CardMask; decide) zero_deck
    (by decide) h (by rw [he]; decide)), he⟩

/-- Eight pairs before the flop and a single thread: there is an end, and every end is a panic. -/
example (sqrt : ℚ → ℚ) (target : ℚ) (cb : CallbackP) :
    (∀ e calls, ApproxDebug sqrt (eightHands.map fun c => [c]) 0 0 1 target false cb e calls → e = .panicked) ∧
    ∃ calls, ApproxDebug sqrt (eightHands.map fun c => [c]) 0 0 1 target false cb .panicked calls := by
  have hok : prepareExact (eightHands.map fun c => [c]) 0 0 =
      .ok (Sim.new ((eightHands.map fun c => [c]).map fun h => removeConflictingCombos h 0 0)
        (CombinedRange.fromRanges ((eightHands.map fun c => [c]).map fun h => removeConflictingCombos h 0 0)) 0 0 true) := by
    unfold prepareExact
    rw [show validate (List.length _) _ 0 = none by decide +kernel]
    show (if _ then _ else _) = _
    rw [if_neg (by decide +kernel)]
  exact C81_known_panics ⟨by unfold WfRange eightHands sevenHands; decide, by decide, by decide⟩ (by decide) zero_deck zero_deck (by decide +kernel)
    (by decide) hok

/-- C81: a thread of a simulation that panics with the results poisons them. -/
theorem C81_approx_poison {s : Sim} {m : Nat} {r0 : Results} {i j t : Nat} {x y z : Call McLocal Results}
    (hx : Call.Steps (approxDebug sqrt target s) nT cb (Call.init (McLocal.init m) r0 cancelled) i x) (ht : t < nT)
    (hm : (approxDebug sqrt target s).Move t x.threads y.threads) (howner : x.threads.resOwner = some t)
    (hpanic : (y.threads.locals t).pc = .panicked) (hz : Call.Steps (approxDebug sqrt target s) nT cb y j z) :
    z.threads.results = y.threads.results ∧ z.threads.sent = x.threads.sent ∧
    ∀ u, (z.threads.locals u).pc = .done → (x.threads.locals u).pc = .done := by
  obtain ⟨g1, g2, g3⟩ := hx.poisoned (fun l b l' hk hc => (by obtain ⟨g, ds, g', _, hc⟩ := hc; exact mcStepC_not_done hk hc))
    (fun l p x _ h => (by cases h))
    (fun l => show (l.afterUpdate s.nPlayers).pc.kind ≠ .panicked by unfold McLocal.afterUpdate; split <;> exact fun h => nomatch h)
    (approxProgram_lawful _ _ _ _ _) ht hm howner (mcKind_panicked.2 hpanic) hz
  exact ⟨g1, g2, fun u hu => mcKind_done.1 (g3 u (mcKind_done.2 hu))⟩

/-- C81: the callback of a simulation that returns a result has been called and has not panicked. -/
theorem C81_approx_debug_callback (hT : 0 < nT) {r : Results} (h : ApproxDebug sqrt ranges b d nT target cancelled cb (.returned (.ok r)) calls) :
    calls ≠ [] ∧ ∀ c m, c ++ [m] <+: calls → cb c m ≠ none := by
  obtain ⟨p, hp, h⟩ := h
  cases p with
  | error e => cases h.1
  | ok s =>
    simp only at h
    split at h
    · cases h.1
    · obtain ⟨k, x, h4, ⟨h5, _⟩, h8⟩ := h
      subst h8
      obtain ⟨g1, g2⟩ := h4.heard (fun l b l' hk hc => (by obtain ⟨g, ds, g', _, hc⟩ := hc; exact mcStepC_not_done hk hc))
        (fun l p x _ h => (by cases h)) (approxProgram_lawful _ _ _ _ _) h5
      exact ⟨g2 (fun h => nomatch h) hT, g1⟩

/-! ## The random simulation in a release build -/

/-- C81: what `approx_equity` returns in a release build with locks is a result of the model with atomic steps (C78). -/
theorem C81_approx_release_returned {res : Except SimulatorError Results}
    (h : ApproxRelease ranges b d nT target cancelled cb (.returned res) calls) : ApproxEquityR ranges b d nT target cancelled res calls := by
  obtain ⟨p, hp, h⟩ := h
  refine ⟨p, hp, ?_⟩
  cases p with
  | error e => simp only at h ⊢; cases h.1; exact ⟨rfl, h.2⟩
  | ok s =>
    simp only at h ⊢
    obtain ⟨r0, flag, k, x, h1, h4, ⟨h5, r, h6, h7⟩, h8⟩ := h
    obtain ⟨v, j, g1, g2, g3, g4, g5⟩ := h4.returned (approxProgram_lawful _ _ _ _ _) h5
    refine ⟨r0, flag, v.mcWorld, h1, approxRelease_steps g1, fun t ht => mcKind_done.1 (g5 t ht), ?_, h8.trans g3.symm⟩
    rw [h7, ← Option.some.inj h6]
    exact congrArg (fun r => Except.ok (finishResultsF s flag r)) g2.symm

/-- C81: and with a callback that does not panic all of them are returned. -/
theorem C81_approx_release_all (hcb : ∀ c m, cb c m ≠ none) {res : Except SimulatorError Results}
    (h : ApproxEquityR ranges b d nT target cancelled res calls) : ApproxRelease ranges b d nT target cancelled cb (.returned res) calls := by
  obtain ⟨p, hp, h⟩ := h
  refine ⟨p, hp, ?_⟩
  cases p with
  | error e => simp only at h ⊢; exact ⟨by rw [h.1], h.2⟩
  | ok s =>
    simp only at h ⊢
    obtain ⟨r0, flag, w, h0, h4, h5, h7, h8⟩ := h
    obtain ⟨j, hj⟩ := release_mcStepsR h4
    obtain ⟨k, x, g1, g2, g3, g4, _⟩ := Program.Steps.call (approxProgram_lawful _ _ _ _ _) hcb hj fun t ht => mcKind_done.2 (h5 t ht)
    refine ⟨r0, flag, k, x, h0, g1, ⟨g2, _, rfl, ?_⟩, h8.trans g4.symm⟩
    rw [h7]
    exact congrArg (fun r => Except.ok (finishResultsF s flag r)) g3.symm

/-- C81: a simulation in a release build is never in a deadlock. -/
theorem C81_approx_release_ends {s : Sim} (hr : McReady ranges b d s) {m : Nat} {r0 : Results} {k : Nat} {x : Call McLocal Results}
    (h : Call.Steps (approxRelease target s) nT cb (Call.init (McLocal.init m) r0 cancelled) k x)
    (hstuck : ∀ y, ¬ Call.Step (approxRelease target s) nT cb x y) :
    Call.Returns (approxRelease target s) nT x ∨ Call.Panics (approxRelease target s) nT x := by
  refine h.ended (approxProgram_lawful _ _ _ _ _) (fun u hu _ hk => ?_) hstuck
  obtain ⟨j, h1⟩ := h.moves
  have hf := approx_fine (fun l l' g g' ds hl hk hs => (hl.stepR hr hk hs).1) (fun t => WalkFine.init b d s m) h1 u
  obtain ⟨ds, l', hs⟩ := hf.liveR (target := target) hr hk ⟨r0, x.threads.stopped, []⟩
  exact ⟨l', _, ds, _, rfl, hs⟩

/-- C81: once it has been cancelled it ends after a bounded number of steps. -/
theorem C81_approx_release_cancelled {s : Sim} {m : Nat} {r0 : Results} {i k : Nat} {x y : Call McLocal Results}
    (hx : Call.Steps (approxRelease target s) nT cb (Call.init (McLocal.init m) r0 cancelled) i x) (hs : x.threads.stopped = true)
    (hy : Call.Steps (approxRelease target s) nT cb x k y) : k ≤ 164000 * nT + (x.threads.sent.length - x.calls.length) :=
  cancelled_call (fun _ _ _ _ _ hk hg hs => mcStepR_measure hk hg hs) hx hs hy

/-- C81: so it can come to an end, for every callback. -/
theorem C81_approx_release_exists (hwf : ∀ r ∈ ranges, WfRange r) (hb : CardMask b) (hd : CardMask d) (cb : CallbackP) :
    ∃ e calls, ApproxRelease ranges b d nT target cancelled cb e calls := by
  cases hp : prepareExact ranges b d with
  | error e => exact ⟨_, _, _, C39_approx.2 hp, rfl, rfl⟩
  | ok s0 =>
    obtain ⟨s, hs⟩ := C39_approx_ok hp
    have hr : McReady ranges b d s := ⟨hwf, hb, hd, hs⟩
    obtain ⟨r0, flag, hst⟩ := start_some_of (d := d) hwf (s := s) hr.fields.2.1 hr.fields.2.2.2.2.2.2.2.2.2 hr.hands
    obtain ⟨k, x, g1, g2, _⟩ := Call.Steps.stop (164000 * nT + 0)
      (fun k y h => C81_approx_release_cancelled (target := target) (s := s) (cb := cb) (x := Call.init (McLocal.init s.nPlayers) r0 true)
        (cancelled := true) .refl rfl h) .refl
    rcases C81_approx_release_ends hr g1 g2 with hx | hx
    · exact ⟨.returned (.ok _), _, _, hs, r0, flag, k, x, hst, g1.ofCancelled, ⟨hx, _, rfl, rfl⟩, rfl⟩
    · exact ⟨.panicked, _, _, hs, r0, flag, k, x, hst, g1.ofCancelled, Or.inl hx, rfl⟩

/-- C81: and it never panics, unless its callback does. -/
theorem C81_approx_release_no_panic (hwf : ∀ r ∈ ranges, WfRange r) (hb : CardMask b) (hd : CardMask d) (hcb : ∀ c m, cb c m ≠ none) :
    ¬ ApproxRelease ranges b d nT target cancelled cb .panicked calls := by
  rintro ⟨p, hp, h⟩
  cases p with
  | error e => cases h.1
  | ok s =>
    simp only at h
    have hr : McReady ranges b d s := ⟨hwf, hb, hd, hp⟩
    obtain ⟨r0, flag, k, x, h0, h4, h5, _⟩ := h
    rcases h5 with ⟨_, h5 | ⟨_, h5⟩⟩ | ⟨_, h6⟩
    · rw [h4.total hcb] at h5; cases h5
    · obtain ⟨v, j, g1, t, ht, g2⟩ := h4.root (approxProgram_lawful _ _ _ _ _) h5
      obtain ⟨w, hw, hc⟩ := McStepsR.follow hr.approximate (init_mcWorldMod h0 cancelled)
        (approxRelease_steps g1 : McStepsR target s nT (McWorld.init s r0 cancelled) v.mcWorld)
      obtain ⟨_, _, _, hI⟩ := McInv.steps hr hw
      exact hI.fine t ht ((hc.locals t).pc.symm.trans (mcKind_panicked.1 g2))
    · cases h6

/-- The eight hands for which every debug build panics: a release build returns. -/
example (target : ℚ) : ∃ res calls, ApproxRelease (eightHands.map fun c => [c]) 0 0 1 target false (fun _ _ => some false) (.returned res) calls := by
  have hwf : ∀ r ∈ eightHands.map (fun c => [c]), WfRange r := by unfold WfRange eightHands sevenHands; decide
  obtain ⟨e, calls, h⟩ := C81_approx_release_exists (nT := 1) (target := target) (cancelled := false) hwf zero_deck zero_deck fun _ _ => some false
  cases e with
  | returned res => exact ⟨res, calls, h⟩
  | panicked => exact absurd h (C81_approx_release_no_panic hwf zero_deck zero_deck fun _ _ => by decide)

/-- C81: the callback of a simulation that returns a result has been called and has not panicked. -/
theorem C81_approx_release_callback (hT : 0 < nT) {r : Results} (h : ApproxRelease ranges b d nT target cancelled cb (.returned (.ok r)) calls) :
    calls ≠ [] ∧ ∀ c m, c ++ [m] <+: calls → cb c m ≠ none := by
  obtain ⟨p, hp, h⟩ := h
  cases p with
  | error e => cases h.1
  | ok s =>
    simp only at h
    obtain ⟨_, _, k, x, _, h4, ⟨h5, _⟩, h8⟩ := h
    subst h8
    obtain ⟨g1, g2⟩ := h4.heard (fun l b l' hk hc => (by obtain ⟨g, ds, g', _, hc⟩ := hc; exact mcStepR_not_done hk hc))
      (fun l p x _ h => (by cases h)) (approxProgram_lawful _ _ _ _ _) h5
    exact ⟨g2 (fun h => nomatch h) hT, g1⟩

end
end Pokers
